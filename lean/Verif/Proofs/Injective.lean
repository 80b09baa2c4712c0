/-
The printed form of a container determines its elements (if they are not floats).
-/
import Verif.Proofs.Updates
import Verif.Proofs.Escape
import Verif.Proofs.Decimal

namespace Knuckle

open Spec

abbrev esc (v : Str) : Str := escape c!"\"" v

/-- What can follow an element in the text of a container: plain bytes, characters, strings. -/
inductive AC : Str → Prop
  | nil : AC []
  | byte {c s} : c ≠ c!"\"" → c ≠ c!"\\" → AC s → AC (c :: s)
  | chr {c s} : AC s → AC (c!"'" :: c :: c!"'" :: s)
  | str {y s} : AC s → s.head? ≠ some c!"'" → AC (c!"\"" :: (esc y ++ c!"\"" :: s))

theorem esc_cons (c : Byte) (v : Str) : esc (c :: v) = if c = c!"\"" then c!"\\" :: c!"\"" :: esc v else c :: esc v := by
  unfold esc; rw [escape_cons]; by_cases h : c = c!"\"" <;> simp [h]

/-- A byte other than a quote or a backslash at the start of an escaped text. -/
theorem esc_byte {c : Byte} {x s r : Str} (h1 : c ≠ c!"\"") (h2 : c ≠ c!"\\") (h : c :: s = esc x ++ c!"\"" :: r) :
    ∃ x', s = esc x' ++ c!"\"" :: r := by
  cases x with
  | nil => exact absurd (List.cons.inj h).1 h1
  | cons d x =>
    rw [esc_cons] at h
    split at h
    · exact absurd (List.cons.inj h).1 h2
    · exact ⟨x, (List.cons.inj h).2⟩

/-- A quote at the start of an escaped text ends it. -/
theorem esc_quote {x s r : Str} (h : c!"\"" :: s = esc x ++ c!"\"" :: r) : x = [] ∧ s = r := by
  cases x with
  | nil => exact ⟨rfl, (List.cons.inj h).2⟩
  | cons d x =>
    rw [esc_cons] at h
    split at h
    · exact absurd (List.cons.inj h).1 (by decide)
    · rename_i hd; exact absurd (List.cons.inj h).1.symm hd

/-- What follows an element is never the rest of a string that has not ended yet. -/
theorem no_shift : ∀ k s r x, s.length ≤ k → AC s → AC r → r.head? ≠ some c!"'" → s ≠ esc x ++ c!"\"" :: r := by
  intro k
  induction k with
  | zero =>
    intro s r x hk hs hr hh h
    have := congrArg List.length h
    simp at this; omega
  | succ k ih =>
    intro s r x hk hs hr hh h
    cases hs with
    | nil => have := congrArg List.length h; simp at this
    | byte h1 h2 hs =>
      obtain ⟨x', e⟩ := esc_byte h1 h2 h
      exact ih _ _ x' (by simpa using hk) hs hr hh e
    | @chr c s hs =>
      obtain ⟨x', e⟩ := esc_byte (by decide) (by decide) h
      simp only [List.length_cons] at hk
      by_cases h1 : c = c!"\""
      · subst h1
        obtain ⟨_, rfl⟩ := esc_quote e
        exact hh rfl
      · have key : ∃ x'', c!"'" :: s = esc x'' ++ c!"\"" :: r := by
          cases x' with
          | nil => exact absurd (List.cons.inj e).1 h1
          | cons d x' =>
            rw [esc_cons] at e
            split at e
            · exact absurd (List.cons.inj (List.cons.inj e).2).1 (by decide)
            · exact ⟨x', (List.cons.inj e).2⟩
        obtain ⟨x'', e⟩ := key
        obtain ⟨x3, e⟩ := esc_byte (by decide) (by decide) e
        exact ih _ _ x3 (by omega) hs hr hh e
    | @str y s hs hh' =>
      obtain ⟨_, e⟩ := esc_quote h
      have hl := congrArg List.length e
      simp only [List.length_cons] at hk
      exact ih r s y (by omega) hr hs hh' e.symm

theorem esc_cancel : ∀ a b r r', AC r → AC r' → r.head? ≠ some c!"'" → r'.head? ≠ some c!"'" →
    esc a ++ c!"\"" :: r = esc b ++ c!"\"" :: r' → a = b ∧ r = r' := by
  intro a
  induction a with
  | nil => intro b r r' _ _ _ _ h; obtain ⟨h1, h2⟩ := esc_quote h; exact ⟨h1.symm, h2⟩
  | cons c a ih =>
    intro b r r' hr hr' hh hh' h
    cases b with
    | nil => obtain ⟨h1, h2⟩ := esc_quote h.symm; exact ⟨h1, h2.symm⟩
    | cons d b =>
      rw [esc_cons, esc_cons] at h
      by_cases hc : c = c!"\"" <;> by_cases hd : d = c!"\""
      · rw [if_pos hc, if_pos hd] at h
        obtain ⟨h1, h2⟩ := ih b r r' hr hr' hh hh' (List.cons.inj (List.cons.inj h).2).2
        exact ⟨by rw [hc, hd, h1], h2⟩
      · rw [if_pos hc, if_neg hd] at h
        obtain ⟨_, e⟩ := esc_quote (List.cons.inj h).2
        exact absurd e.symm (no_shift _ _ _ _ (Nat.le_refl _) hr' hr hh)
      · rw [if_neg hc, if_pos hd] at h
        obtain ⟨_, e⟩ := esc_quote (List.cons.inj h).2.symm
        exact absurd e.symm (no_shift _ _ _ _ (Nat.le_refl _) hr hr' hh')
      · rw [if_neg hc, if_neg hd] at h
        obtain ⟨h1, h2⟩ := ih b r r' hr hr' hh hh' (List.cons.inj h).2
        exact ⟨by rw [(List.cons.inj h).1, h1], h2⟩

/-! ### Elements -/

/-- What can follow an element: it starts with a comma or a closing bracket. -/
def Rest (s : Str) : Prop := AC s ∧ ∃ c q, s = c :: q ∧ (c = c!"," ∨ c = c!")" ∨ c = c!"]" ∨ c = c!"}")

theorem rest_head {s : Str} (h : Rest s) : s.head? ≠ some c!"'" := by
  obtain ⟨_, c, q, rfl, h⟩ := h
  intro e
  injection e with e
  subst e
  revert h; decide

theorem rest_not_digit {s : Str} (h : Rest s) : ∀ c, s.head? = some c → ¬ Digit c := by
  obtain ⟨_, d, q, rfl, h⟩ := h
  intro c e
  injection e with e
  subst e
  rcases h with rfl | rfl | rfl | rfl <;> (unfold Digit; decide)

/-- Digits are the same if followed by something that does not start with a digit. -/
theorem digits_cancel : ∀ a b r r' : Str, Digits a → Digits b → (∀ c, r.head? = some c → ¬ Digit c) →
    (∀ c, r'.head? = some c → ¬ Digit c) → a ++ r = b ++ r' → a = b ∧ r = r' := by
  intro a
  induction a with
  | nil =>
    intro b r r' _ hb hr _ h
    cases b with
    | nil => exact ⟨rfl, h⟩
    | cons d b =>
      simp only [List.nil_append] at h
      exact absurd (hb d (by simp)) (hr d (by rw [h]; rfl))
  | cons c a ih =>
    intro b r r' ha hb hr hr' h
    cases b with
    | nil =>
      simp only [List.nil_append] at h
      exact absurd (ha c (by simp)) (hr' c (by rw [← h]; rfl))
    | cons d b =>
      obtain ⟨h1, h2⟩ := List.cons.inj h
      obtain ⟨e1, e2⟩ := ih b r r' (fun x hx => ha x (List.mem_cons_of_mem _ hx)) (fun x hx => hb x (List.mem_cons_of_mem _ hx)) hr hr' h2
      exact ⟨by rw [h1, e1], e2⟩

theorem intStr_cancel {n m : Int} {r r' : Str} (hr : Rest r) (hr' : Rest r') (h : intStr n ++ r = intStr m ++ r') : n = m ∧ r = r' := by
  have dash : ∀ (k : Nat) (q q' : Str), natStr k ++ q ≠ c!"-" :: q' := by
    intro k q q' e
    obtain ⟨d, z, e1, hd⟩ := natStr_digit k
    rw [e1] at e
    have := (List.cons.inj e).1
    subst this
    revert hd; unfold Digit; decide
  have pos : ∀ a b : Nat, natStr a ++ r = natStr b ++ r' → natStr a = natStr b ∧ r = r' := fun a b e =>
    digits_cancel _ _ _ _ (natStr_spec a).1 (natStr_spec b).1 (rest_not_digit hr) (rest_not_digit hr') e
  have : intStr n = intStr m ∧ r = r' := by
    unfold intStr at h ⊢
    by_cases h1 : n < 0 <;> by_cases h2 : m < 0
    · rw [if_pos h1, if_pos h2] at *
      obtain ⟨e1, e2⟩ := pos _ _ (List.cons.inj h).2
      exact ⟨by rw [e1], e2⟩
    · rw [if_pos h1, if_neg h2] at h; exact absurd h.symm (dash _ _ _)
    · rw [if_neg h1, if_pos h2] at h; exact absurd h (dash _ _ _)
    · rw [if_neg h1, if_neg h2] at *; exact pos _ _ h
  exact ⟨intStr_inj _ _ this.1, this.2⟩

theorem repr_cancel {t : Str} (ht : t ≠ b!"Float") {o o' : Obj} (ho : HasType t o) (ho' : HasType t o') {p p' : Int} {r r' : Str}
    (hr : Rest r) (hr' : Rest r') (h : o.repr p ++ r = o'.repr p' ++ r') : o = o' ∧ r = r' := by
  have hty : o.type = o'.type := ho.1.trans ho'.1.symm
  cases o with
  | float x => exact absurd ho.1.symm ht
  | boolean b =>
    cases o' with
    | boolean b' =>
      cases b <;> cases b' <;> simp only [Obj.repr, boolStr] at h
      · exact ⟨rfl, by simpa using h⟩
      · exact absurd (List.cons.inj h).1 (by decide)
      · exact absurd (List.cons.inj h).1 (by decide)
      · exact ⟨rfl, by simpa using h⟩
    | _ => exact absurd hty (by simp only [Obj.type]; decide)
  | character c =>
    cases o' with
    | character c' =>
      simp only [Obj.repr, charStr, List.cons_append, List.nil_append, List.cons.injEq, true_and] at h
      exact ⟨by rw [h.1], h.2⟩
    | _ => exact absurd hty (by simp only [Obj.type]; decide)
  | integer n =>
    cases o' with
    | integer m =>
      obtain ⟨h1, h2⟩ := intStr_cancel hr hr' h
      exact ⟨by rw [h1], h2⟩
    | _ => exact absurd hty (by simp only [Obj.type]; decide)
  | string v =>
    cases o' with
    | string w =>
      simp only [Obj.repr, quoted, List.cons_append, List.append_assoc, List.nil_append, List.cons.injEq, true_and] at h
      obtain ⟨h1, h2⟩ := esc_cancel v w r r' hr.1 hr'.1 (rest_head hr) (rest_head hr') h
      exact ⟨by rw [h1], h2⟩
    | _ => exact absurd hty (by simp only [Obj.type]; decide)

theorem ac_bytes {s q : Str} (hs : AC s) (h : ∀ c ∈ q, c ≠ c!"\"" ∧ c ≠ c!"\\") : AC (q ++ s) := by
  induction q with
  | nil => exact hs
  | cons c q ih =>
    exact .byte (h c (by simp)).1 (h c (by simp)).2 (ih fun x hx => h x (List.mem_cons_of_mem _ hx))

theorem ac_digits {s q : Str} (hs : AC s) (h : Digits q) : AC (q ++ s) := by
  refine ac_bytes hs fun c hc => ?_
  have := h c hc
  constructor <;> (rintro rfl; revert this; unfold Digit; decide)

theorem ac_repr {t : Str} (ht : t ≠ b!"Float") {o : Obj} (ho : HasType t o) {p : Int} {s : Str} (hs : Rest s) : AC (o.repr p ++ s) := by
  cases o with
  | float x => exact absurd ho.1.symm ht
  | boolean b =>
    refine ac_bytes hs.1 ?_
    cases b <;> simp only [Obj.repr, boolStr] <;> decide
  | character c => exact .chr hs.1
  | integer n =>
    simp only [Obj.repr]; unfold intStr
    split
    · exact .byte (by decide) (by decide) (ac_digits hs.1 (natStr_spec _).1)
    · exact ac_digits hs.1 (natStr_spec _).1
  | string v =>
    simp only [Obj.repr, quoted, List.cons_append, List.append_assoc, List.nil_append]
    exact .str hs.1 (rest_head hs)

/-! ### Lists of texts -/

/-- The rest of a list text after its first element. -/
def tailText {α : Type} (f : α → Str) (z : Byte) : List α → Str
  | [] => [z]
  | x :: xs => c!"," :: (f x ++ tailText f z xs)

theorem intercalate_tail {α : Type} (f : α → Str) (z : Byte) (x : α) (xs : List α) :
    List.intercalate b!"," ((x :: xs).map f) ++ [z] = f x ++ tailText f z xs := by
  induction xs generalizing x with
  | nil => simp [tailText, List.intercalate]
  | cons y ys ih =>
    have := ih y
    rw [List.map_cons, List.map_cons]
    simp only [List.intercalate, List.intersperse, List.flatten_cons, List.map_cons, tailText] at this ⊢
    rw [List.append_assoc, List.append_assoc, this]
    rfl

theorem listText_tail {α : Type} (f : α → Str) (a z : Byte) (l : List α) :
    listText a z (l.map f) = a :: (match l with | [] => [z] | x :: xs => f x ++ tailText f z xs) := by
  unfold listText
  cases l with
  | nil => rfl
  | cons x xs => rw [intercalate_tail]; rfl

/-- Element texts that can be told apart whatever follows. -/
structure Separable {α : Type} (f : α → Str) (P : α → Prop) : Prop where
  cancel : ∀ x x' r r', P x → P x' → Rest r → Rest r' → f x ++ r = f x' ++ r' → x = x' ∧ r = r'
  ac : ∀ x r, P x → Rest r → AC (f x ++ r)
  nonempty : ∀ x, P x → f x ≠ []

theorem rest_tail {α : Type} {f : α → Str} {P : α → Prop} (h : Separable f P) {z : Byte} (hz : z = c!")" ∨ z = c!"]" ∨ z = c!"}") :
    ∀ l : List α, (∀ x ∈ l, P x) → Rest (tailText f z l) := by
  intro l
  induction l with
  | nil =>
    intro _
    refine ⟨.byte ?_ ?_ .nil, z, [], rfl, .inr hz⟩ <;> rcases hz with rfl | rfl | rfl <;> decide
  | cons x xs ih =>
    intro hl
    exact ⟨.byte (by decide) (by decide) (h.ac x _ (hl x (by simp)) (ih fun y hy => hl y (List.mem_cons_of_mem _ hy))), _, _, rfl, .inl rfl⟩

theorem tailText_inj {α : Type} {f : α → Str} {P : α → Prop} (h : Separable f P) {z : Byte} (hz : z = c!")" ∨ z = c!"]" ∨ z = c!"}") :
    ∀ l l' : List α, (∀ x ∈ l, P x) → (∀ x ∈ l', P x) → tailText f z l = tailText f z l' → l = l' := by
  have hne : z ≠ c!"," := by rcases hz with rfl | rfl | rfl <;> decide
  intro l
  induction l with
  | nil =>
    intro l' _ _ e
    cases l' with
    | nil => rfl
    | cons y ys => exact absurd (List.cons.inj e).1 hne
  | cons x xs ih =>
    intro l' hl hl' e
    cases l' with
    | nil => exact absurd (List.cons.inj e).1.symm hne
    | cons y ys =>
      have hxs : ∀ a ∈ xs, P a := fun a ha => hl a (List.mem_cons_of_mem _ ha)
      have hys : ∀ a ∈ ys, P a := fun a ha => hl' a (List.mem_cons_of_mem _ ha)
      obtain ⟨e1, e2⟩ := h.cancel x y _ _ (hl x (by simp)) (hl' y (by simp)) (rest_tail h hz xs hxs) (rest_tail h hz ys hys) (List.cons.inj e).2
      rw [e1, ih ys hxs hys e2]

theorem listText_inj {α : Type} {f : α → Str} {P : α → Prop} (h : Separable f P) {a z : Byte} (hz : z = c!")" ∨ z = c!"]" ∨ z = c!"}")
    (l l' : List α) (hl : ∀ x ∈ l, P x) (hl' : ∀ x ∈ l', P x) (e : listText a z (l.map f) = listText a z (l'.map f)) : l = l' := by
  rw [listText_tail, listText_tail] at e
  have e := (List.cons.inj e).2
  have len : ∀ x xs, P x → [z] ≠ f x ++ tailText f z xs := by
    intro x xs hx e
    have h1 := congrArg List.length e
    have h2 : 0 < (f x).length := List.length_pos_iff.2 (h.nonempty x hx)
    have h3 : 0 < (tailText f z xs).length := by cases xs <;> simp [tailText]
    rw [List.length_append] at h1
    simp only [List.length_singleton] at h1
    omega
  cases l with
  | nil =>
    cases l' with
    | nil => rfl
    | cons y ys => exact absurd e (len y ys (hl' y (by simp)))
  | cons x xs =>
    cases l' with
    | nil => exact absurd e.symm (len x xs (hl x (by simp)))
    | cons y ys =>
      have hxs : ∀ a ∈ xs, P a := fun a ha => hl a (List.mem_cons_of_mem _ ha)
      have hys : ∀ a ∈ ys, P a := fun a ha => hl' a (List.mem_cons_of_mem _ ha)
      obtain ⟨e1, e2⟩ := h.cancel x y _ _ (hl x (by simp)) (hl' y (by simp)) (rest_tail h hz xs hxs) (rest_tail h hz ys hys) e
      rw [e1, tailText_inj h hz xs ys hxs hys e2]

theorem okReply_ne_nil' (p : Int) (o : Obj) : o.repr p ≠ [] := by
  cases o with
  | boolean b => cases b <;> simp only [Obj.repr] <;> decide
  | character c => simp [Obj.repr, charStr]
  | integer n =>
    simp only [Obj.repr]; unfold intStr
    split
    · simp
    · exact (natStr_spec _).2.1
  | float x =>
    simp only [Obj.repr]
    cases x with
    | nan => simp [fmtFixed]
    | inf s => cases s <;> simp [fmtFixed]
    | fin s k =>
      simp only [fmtFixed]
      split
      · simp
      · simp [(natStr_spec _).2.1]
  | string v => simp [Obj.repr, quoted]

theorem separable_repr {t : Str} (ht : t ≠ b!"Float") (p : Int) : Separable (Obj.repr p) (HasType t) where
  cancel := fun _ _ _ _ hx hx' hr hr' h => repr_cancel ht hx hx' hr hr' h
  ac := fun _ _ hx hr => ac_repr ht hx hr
  nonempty := fun x _ => okReply_ne_nil' p x

theorem separable_pair {t u : Str} (ht : t ≠ b!"Float") (hu : u ≠ b!"Float") (p : Int) :
    Separable (fun kv : Obj × Obj => listText c!"(" c!")" [kv.1.repr p, kv.2.repr p]) (fun kv => HasType t kv.1 ∧ HasType u kv.2) := by
  have e : ∀ (kv : Obj × Obj) (r : Str), listText c!"(" c!")" [kv.1.repr p, kv.2.repr p] ++ r =
      c!"(" :: (kv.1.repr p ++ c!"," :: (kv.2.repr p ++ c!")" :: r)) := by
    intro kv r; simp [listText, List.intercalate]
  have r2 : ∀ r, Rest r → Rest (c!")" :: r) := fun r hr => ⟨.byte (by decide) (by decide) hr.1, _, _, rfl, .inr (.inl rfl)⟩
  have r1 : ∀ (kv : Obj × Obj) r, HasType u kv.2 → Rest r → Rest (c!"," :: (kv.2.repr p ++ c!")" :: r)) := fun kv r h hr =>
    ⟨.byte (by decide) (by decide) (ac_repr hu h (r2 r hr)), _, _, rfl, .inl rfl⟩
  refine ⟨fun x x' r r' hx hx' hr hr' h => ?_, fun x r hx hr => ?_, fun x _ h => ?_⟩
  · rw [e, e] at h
    obtain ⟨h1, h2⟩ := repr_cancel ht hx.1 hx'.1 (r1 x r hx.2 hr) (r1 x' r' hx'.2 hr') (List.cons.inj h).2
    obtain ⟨h3, h4⟩ := repr_cancel hu hx.2 hx'.2 (r2 r hr) (r2 r' hr') (List.cons.inj h2).2
    exact ⟨Prod.ext h1 h3, (List.cons.inj h4).2⟩
  · rw [e]
    exact .byte (by decide) (by decide) (ac_repr ht hx.1 (r1 x r hx.2 hr))
  · have := congrArg List.length h; simp [listText] at this

end Knuckle

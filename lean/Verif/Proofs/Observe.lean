/-
Everything stored can be observed.
-/
import Verif.Spec.Observe
import Verif.Proofs.Rebuild
import Verif.Proofs.Injective

namespace Knuckle

open Spec Props

/-! ### Texts of floats with 46 or more decimals -/

theorem cancel_class {P : Byte → Prop} : ∀ a b r r' : Str, (∀ c ∈ a, P c) → (∀ c ∈ b, P c) → (∀ c, r.head? = some c → ¬ P c) →
    (∀ c, r'.head? = some c → ¬ P c) → a ++ r = b ++ r' → a = b ∧ r = r' := by
  intro a
  induction a with
  | nil =>
    intro b r r' _ hb hr _ h
    cases b with
    | nil => exact ⟨rfl, h⟩
    | cons d b =>
      simp only [List.nil_append] at h
      exact absurd (hb d (by simp)) (hr d (by rw [h]; rfl))
  | cons c a ih =>
    intro b r r' ha hb hr hr' h
    cases b with
    | nil =>
      simp only [List.nil_append] at h
      exact absurd (ha c (by simp)) (hr' c (by rw [← h]; rfl))
    | cons d b =>
      obtain ⟨h1, h2⟩ := List.cons.inj h
      obtain ⟨e1, e2⟩ := ih b r r' (fun x hx => ha x (List.mem_cons_of_mem _ hx)) (fun x hx => hb x (List.mem_cons_of_mem _ hx)) hr hr' h2
      exact ⟨by rw [h1, e1], e2⟩

/-- The bytes in the text of a float. -/
def FloatByte (c : Byte) : Prop := Digit c ∨ c = c!"." ∨ c = c!"-" ∨ c = c!"i" ∨ c = c!"n" ∨ c = c!"f" ∨ c = c!"a"

theorem fmtFixed_bytes {p : Int} (hp : 46 ≤ p) (x : Fl) : ∀ c ∈ fmtFixed p x, FloatByte c := by
  cases x with
  | nan => simp only [fmtFixed]; unfold FloatByte Digit; decide
  | inf b => cases b <;> (simp only [fmtFixed, Bool.false_eq_true, if_false, if_true]; unfold FloatByte Digit; decide)
  | fin b k =>
    obtain ⟨m, ⟨ip, fp, e, h1, _, _, h2, _, _⟩, _⟩ := fmtFixed_text p (by omega) b k
    rw [e]
    intro c hc
    rcases List.mem_append.1 hc with hc | hc
    · cases b
      · cases hc
      · rw [List.mem_singleton.1 hc]; exact .inr (.inr (.inl rfl))
    · rcases List.mem_append.1 hc with hc | hc
      · exact .inl (h1 c hc)
      · split at hc
        · cases hc
        · rcases List.mem_cons.1 hc with rfl | hc
          · exact .inr (.inl rfl)
          · exact .inl (h2 c hc)

/-- The text of a finite float with 46 or more decimals is a literal of it. -/
theorem denotes_fixed {p : Int} (hp : 46 ≤ p) {neg : Bool} {k : Nat} (h : (Fl.fin neg k).toF32 = .fin neg k) :
    Denotes b!"Float" (fmtFixed p (.fin neg k)) (.float (.fin neg k)) := by
  obtain ⟨m, h1, h2⟩ := fmtFixed_text p (by omega) neg k
  have hl := fixedText_literal h1
  have hq := number_fin neg k
  have hv := denotes_atof ((isFloatValue_iff _).2 ((floatLiteral_exists _).2 ⟨_, _, hl⟩)) rfl
  obtain ⟨k', e', hk, e⟩ := abs_number hq
  have hkk : k' = k := (Fl.fin.inj e').2.symm
  subst hkk
  rw [← hk] at h2
  have := denotes_near hl h rfl hq (text_error (m := (m : ℤ)) e h2) (fun x hx hne => ?_) hv
  · rw [this] at hv; exact hv
  · refine lt_of_lt_of_le ?_ (grid_apart_min (single_number h hq).1 hx hne)
    have h10 : (10 : ℚ) ^ 46 ≤ 10 ^ p.toNat := pow_le_pow_right₀ (by norm_num) (by omega)
    calc 4 * (1 / 2 / 10 ^ p.toNat : ℚ) ≤ 4 * (1 / 2 / 10 ^ 46) :=
          mul_le_mul_of_nonneg_left (div_le_div_of_nonneg_left (by norm_num) (by positivity) h10) (by norm_num)
      _ < _ := by norm_num

theorem fmtFixed_inj {p : Int} (hp : 46 ≤ p) {x y : Fl} (hx : x.toF32 = x) (hy : y.toF32 = y) (h : fmtFixed p x = fmtFixed p y) : x = y := by
  have den : ∀ b k, (Fl.fin b k).toF32 = .fin b k → Denotes b!"Float" (fmtFixed p (.fin b k)) (.float (.fin b k)) := fun b k hk =>
    denotes_fixed hp hk
  have val : ∀ b k, FloatValue (fmtFixed p (.fin b k)) := fun b k => by
    obtain ⟨m, h1, _⟩ := fmtFixed_text p (by omega) b k
    exact (floatLiteral_exists _).2 ⟨_, _, fixedText_literal h1⟩
  have inf : ∀ s b k, fmtFixed p (.inf s) ≠ fmtFixed p (.fin b k) := fun s b k e => by
    have := val b k
    rw [← e] at this
    cases s
    · exact C54_special_not_literal _ (by simp [fmtFixed]) this
    · exact C54_special_not_literal _ (by simp [fmtFixed]) this
  have nan : ∀ b k, fmtFixed p .nan ≠ fmtFixed p (.fin b k) := fun b k e => by
    have := val b k
    rw [← e] at this
    exact C54_special_not_literal _ (by simp [fmtFixed]) this
  cases x with
  | nan =>
    cases y with
    | nan => rfl
    | inf b => cases b <;> exact absurd h (by simp [fmtFixed])
    | fin b k => exact absurd h (nan b k)
  | inf s =>
    cases y with
    | nan => cases s <;> exact absurd h (by simp [fmtFixed])
    | inf b => cases s <;> cases b <;> first | rfl | exact absurd h (by simp [fmtFixed])
    | fin b k => exact absurd h (inf s b k)
  | fin s j =>
    cases y with
    | nan => exact absurd h.symm (nan s j)
    | inf b => exact absurd h.symm (inf b s j)
    | fin b k =>
      have h1 := den s j hx
      have h2 := den b k hy
      rw [← h] at h2
      have := denotes_unique h1 h2
      injection this

theorem rest_not_float {r : Str} (h : Rest r) : ∀ c, r.head? = some c → ¬ FloatByte c := by
  obtain ⟨_, d, q, rfl, h⟩ := h
  intro c e
  injection e with e
  subst e
  rcases h with rfl | rfl | rfl | rfl <;> (unfold FloatByte Digit; decide)

/-! ### Texts of objects with 46 or more decimals -/

theorem repr46_cancel {p : Int} (hp : 46 ≤ p) {t : Str} {o o' : Obj} (ho : HasType t o) (ho' : HasType t o') {r r' : Str} (hr : Rest r) (hr' : Rest r')
    (h : o.repr p ++ r = o'.repr p ++ r') : o = o' ∧ r = r' := by
  by_cases ht : t = b!"Float"
  · subst ht
    obtain ⟨x, rfl, hx⟩ := hasType_float ho
    obtain ⟨y, rfl, hy⟩ := hasType_float ho'
    obtain ⟨h1, h2⟩ := cancel_class (P := FloatByte) _ _ _ _ (fmtFixed_bytes hp x) (fmtFixed_bytes hp y) (rest_not_float hr) (rest_not_float hr') h
    exact ⟨by rw [fmtFixed_inj hp hx hy h1], h2⟩
  · exact repr_cancel ht ho ho' hr hr' h

theorem ac_repr46 {p : Int} (hp : 46 ≤ p) {t : Str} {o : Obj} (ho : HasType t o) {s : Str} (hs : Rest s) : AC (o.repr p ++ s) := by
  by_cases ht : t = b!"Float"
  · subst ht
    obtain ⟨x, rfl, hx⟩ := hasType_float ho
    refine ac_bytes hs.1 fun c hc => ?_
    have := fmtFixed_bytes hp x c hc
    constructor <;> (rintro rfl; revert this; unfold FloatByte Digit; decide)
  · exact ac_repr ht ho hs

theorem separable46 {p : Int} (hp : 46 ≤ p) (t : Str) : Separable (Obj.repr p) (HasType t) where
  cancel := fun _ _ _ _ hx hx' hr hr' h => repr46_cancel hp hx hx' hr hr' h
  ac := fun _ _ hx hr => ac_repr46 hp hx hr
  nonempty := fun x _ => okReply_ne_nil' p x

theorem separable46_pair {p : Int} (hp : 46 ≤ p) (t u : Str) :
    Separable (fun kv : Obj × Obj => listText c!"(" c!")" [kv.1.repr p, kv.2.repr p]) (fun kv => HasType t kv.1 ∧ HasType u kv.2) := by
  have e : ∀ (kv : Obj × Obj) (r : Str), listText c!"(" c!")" [kv.1.repr p, kv.2.repr p] ++ r =
      c!"(" :: (kv.1.repr p ++ c!"," :: (kv.2.repr p ++ c!")" :: r)) := by
    intro kv r; simp [listText, List.intercalate]
  have r2 : ∀ r, Rest r → Rest (c!")" :: r) := fun r hr => ⟨.byte (by decide) (by decide) hr.1, _, _, rfl, .inr (.inl rfl)⟩
  have r1 : ∀ (kv : Obj × Obj) r, HasType u kv.2 → Rest r → Rest (c!"," :: (kv.2.repr p ++ c!")" :: r)) := fun kv r h hr =>
    ⟨.byte (by decide) (by decide) (ac_repr46 hp h (r2 r hr)), _, _, rfl, .inl rfl⟩
  refine ⟨fun x x' r r' hx hx' hr hr' h => ?_, fun x r hx hr => ?_, fun x _ h => ?_⟩
  · rw [e, e] at h
    obtain ⟨h1, h2⟩ := repr46_cancel hp hx.1 hx'.1 (r1 x r hx.2 hr) (r1 x' r' hx'.2 hr') (List.cons.inj h).2
    obtain ⟨h3, h4⟩ := repr46_cancel hp hx.2 hx'.2 (r2 r hr) (r2 r' hr') (List.cons.inj h2).2
    exact ⟨Prod.ext h1 h3, (List.cons.inj h4).2⟩
  · rw [e]
    exact .byte (by decide) (by decide) (ac_repr46 hp hx.1 (r1 x r hx.2 hr))
  · have := congrArg List.length h; simp [listText] at this

/-! ### Messages to one variable -/

/-- What `get` answers. -/
def getText (p : Int) : Inst → Str
  | .boolean v => boolStr v
  | .character v => charStr v
  | .integer v => intStr v
  | .float v => fmtFixed p v
  | .string v => quoted v
  | .vector _ l => vectorRepr p l
  | .set _ l => setRepr p l
  | .dictionary _ _ l => dictRepr p l

/-- The value a message leaves and the reply. -/
def outcome : Run Inst → Option (Inst × Str)
  | .ret i r => some (i, r)
  | .thr i e => some (i, e.text)
  | .ub => none

/-- The replies to messages sent to one variable one after the other. -/
def talk [StdSort] (cfg : Cfg) : Inst → List (Str × List Str) → Option (List Str)
  | _, [] => some []
  | i, m :: ms => match outcome (receive cfg i m.1 m.2) with
    | some (i', r) => (talk cfg i' ms).map (r :: ·)
    | none => none

section
variable [StdSort] {pwd : Str} {s : Session} {c d : Ctx} {n : Str} {i j : Inst}

theorem receive_get (cfg : Cfg) (i : Inst) : receive cfg i b!"get" [] = .ret i (getText cfg.prec i) := by
  cases i <;> rfl

theorem message_step {text name r : Str} {args : List Str} {i' : Inst} {s : Option Session} (hc : Inv c) (h : Statement text n name args) (hn : Holds c n i)
    (ho : outcome (receive c.cfg i name args) = some (i', r)) :
    ∃ c', execute pwd c s text = .done (c', s, r) ∧ c'.cfg = c.cfg ∧ Holds c' n i' := by
  have hv : isVariable n = true := (isVariable_iff n).2 (inv_variable hc hn)
  have e := execute_statement pwd c s _ _ _ _ h
  rw [executeParsed_variable _ _ _ _ hv] at e
  have hf : mapFind strLt n c.vars = some i := by rw [hc.find]; exact hn
  have hm : n ∈ c.vars.map (·.1) := List.mem_map.2 ⟨_, lookup_some_mem hn, rfl⟩
  simp only [executeInVariable, hf] at e
  cases hr : receive c.cfg i name args with
  | ub => rw [hr] at ho; cases ho
  | ret i1 r1 =>
    rw [hr] at ho e
    cases ho
    refine ⟨_, e, record_cfg _ _ _, ?_⟩
    unfold Holds; rw [record_vars]
    exact (updateVar_lookup n i' c.vars hm n).trans (if_pos rfl)
  | thr i1 e1 =>
    rw [hr] at ho e
    cases ho
    refine ⟨_, e, record_cfg _ _ _, ?_⟩
    unfold Holds; rw [record_vars]
    exact (updateVar_lookup n i' c.vars hm n).trans (if_pos rfl)

theorem indistinguishable_step {c' d' : Ctx} {s' : Session} {t r r' : Str} (h : Indistinguishable pwd s c d)
    (h1 : execute pwd c (some s) t = .done (c', some s', r)) (h2 : execute pwd d (some s) t = .done (d', some s', r')) :
    r = r' ∧ Indistinguishable pwd s' c' d' := by
  constructor
  · have := h [t] [r] [r'] (by simp only [conversation, h1]) (by simp only [conversation, h2])
    exact (List.cons.inj this).1
  · intro ts rs rs' g1 g2
    have := h (t :: ts) (r :: rs) (r' :: rs') (by simp only [conversation, h1, g1]) (by simp only [conversation, h2, g2])
    exact (List.cons.inj this).2

theorem talk_alike {ms : List (Str × List Str)} (hm : ∀ m ∈ ms, ∃ t, Statement t n m.1 m.2) :
    ∀ {c d : Ctx} {i j : Inst} {rs rs' : List Str}, Indistinguishable pwd s c d → Inv c → Inv d → c.cfg = d.cfg → Holds c n i → Holds d n j →
      talk c.cfg i ms = some rs → talk c.cfg j ms = some rs' → rs = rs' := by
  induction ms with
  | nil => intro c d i j rs rs' _ _ _ _ _ _ h1 h2; cases h1; cases h2; rfl
  | cons m ms ih =>
    intro c d i j rs rs' h hc hd hcd hi hj h1 h2
    simp only [talk] at h1 h2
    cases g1 : outcome (receive c.cfg i m.1 m.2) with
    | none => rw [g1] at h1; cases h1
    | some x =>
    cases g2 : outcome (receive c.cfg j m.1 m.2) with
    | none => rw [g2] at h2; cases h2
    | some y =>
    obtain ⟨i', r⟩ := x
    obtain ⟨j', r'⟩ := y
    rw [g1] at h1; rw [g2] at h2
    simp only [Option.map_eq_some_iff] at h1 h2
    obtain ⟨q, h1, rfl⟩ := h1
    obtain ⟨q', h2, rfl⟩ := h2
    obtain ⟨t, ht⟩ := hm m (by simp)
    obtain ⟨c1, a1, b1, e1⟩ := message_step (pwd := pwd) (s := some s) hc ht hi g1
    obtain ⟨d1, a2, b2, e2⟩ := message_step (pwd := pwd) (s := some s) hd ht hj (by rw [← hcd]; exact g2)
    obtain ⟨rfl, hi1⟩ := indistinguishable_step h a1 a2
    have h1' : talk c1.cfg i' ms = some q := by rw [b1]; exact h1
    have h2' : talk c1.cfg j' ms = some q' := by rw [b1]; exact h2
    have hcd' : c1.cfg = d1.cfg := by rw [b1, b2, hcd]
    have := ih (fun x hx => hm x (by simp [hx])) hi1 (exec_inv hc a1) (exec_inv hd a2) hcd' e1 e2 h1' h2'
    rw [this]

/-! ### Types of elements -/

/-- The object types. -/
def objectTypes : List Str := [b!"Boolean", b!"Character", b!"Integer", b!"Float", b!"String"]

/-- A literal for the type. -/
def sample (t : Str) : Str :=
  if t = b!"Boolean" then b!"true" else if t = b!"Character" then b!"'a'" else if t = b!"String" then b!"\"\"" else b!"7"

/-- Messages that show the element type of a vector. -/
def vecProbe (t : Str) : List (Str × List Str) := [(b!"pushBack:", [sample t]), (b!"get", [])]

/-- Messages that show the element type of a set. -/
def setProbe (t : Str) : List (Str × List Str) := [(b!"add:", [sample t]), (b!"get", [])]

/-- Messages that show the types of a dictionary. -/
def dictProbe (t u : Str) : List (Str × List Str) := [(b!"associateValue:withKey:", [sample u, sample t]), (b!"get", [])]

/-- 46 decimals, tolerance zero. -/
def plainCfg : Cfg := ⟨46, .fin false 0⟩

theorem vec_probes : (objectTypes.all fun t => objectTypes.all fun t' => (talk plainCfg (.vector t' []) (vecProbe t)).isSome &&
    (t == t' || talk plainCfg (.vector t []) (vecProbe t) != talk plainCfg (.vector t' []) (vecProbe t))) = true := by kernel_rfl

theorem set_probes : (objectTypes.all fun t => objectTypes.all fun t' => (talk plainCfg (.set t' []) (setProbe t)).isSome &&
    (t == t' || talk plainCfg (.set t []) (setProbe t) != talk plainCfg (.set t' []) (setProbe t))) = true := by kernel_rfl

theorem dict_probes : (objectTypes.all fun t => objectTypes.all fun u => objectTypes.all fun t' => objectTypes.all fun u' =>
    (talk plainCfg (.dictionary t' u' []) (dictProbe t u)).isSome &&
    ((t == t' && u == u') || talk plainCfg (.dictionary t u []) (dictProbe t u) != talk plainCfg (.dictionary t' u' []) (dictProbe t u))) = true := by
  kernel_rfl

/-! ### Kinds of values -/

/-- The kind of a value, by the first byte of its text. -/
def kindByte (b : Byte) : Nat :=
  if b = c!"t" ∨ b = c!"f" then 0 else if b = c!"'" then 1 else if b = c!"\"" then 3 else if b = c!"[" then 4
  else if b = c!"{" then 5 else if b = c!"(" then 6 else 2

/-- The kind of a value; integers and floats are of one kind. -/
def kindInst : Inst → Nat
  | .boolean _ => 0
  | .character _ => 1
  | .integer _ => 2
  | .float _ => 2
  | .string _ => 3
  | .vector _ _ => 4
  | .set _ _ => 5
  | .dictionary _ _ _ => 6

omit [StdSort] in
theorem head_append {a : Str} (h : a ≠ []) (b : Str) : (a ++ b).head? = a.head? := by
  cases a with
  | nil => exact absurd rfl h
  | cons x a => rfl

omit [StdSort] in
theorem intStr_bytes (k : Int) : ∀ c ∈ intStr k, Digit c ∨ c = c!"-" := by
  intro c hc
  unfold intStr at hc
  split at hc
  · rcases List.mem_cons.1 hc with rfl | hc
    · exact .inr rfl
    · exact .inl ((natStr_spec _).1 c hc)
  · exact .inl ((natStr_spec _).1 c hc)

omit [StdSort] in
theorem kind_float {c : Byte} (h : c ∈ fmtFixed 46 x ∨ Digit c ∨ c = c!"-") (hf : c ≠ c!"f") : kindByte c = 2 := by
  have hb : FloatByte c := by
    rcases h with h | h | h
    · exact fmtFixed_bytes (by decide) _ c h
    · exact .inl h
    · exact .inr (.inr (.inl h))
  unfold kindByte
  have : ∀ b : Byte, FloatByte b → b ≠ c!"f" → ¬ (b = c!"t" ∨ b = c!"f") ∧ b ≠ c!"'" ∧ b ≠ c!"\"" ∧ b ≠ c!"[" ∧ b ≠ c!"{" ∧ b ≠ c!"(" := by
    intro b hb hf
    refine ⟨?_, ?_, ?_, ?_, ?_, ?_⟩
    · rintro (rfl | rfl)
      · revert hb; unfold FloatByte Digit; decide
      · exact hf rfl
    all_goals (rintro rfl; revert hb; unfold FloatByte Digit; decide)
  obtain ⟨h1, h2, h3, h4, h5, h6⟩ := this c hb hf
  simp only [h1, h2, h3, h4, h5, h6, if_false]

omit [StdSort] in
theorem float_head (x : Fl) : ∃ c, (fmtFixed 46 x).head? = some c ∧ c ∈ fmtFixed 46 x ∧ c ≠ c!"f" := by
  cases x with
  | nan => exact ⟨c!"-", rfl, by decide, by decide⟩
  | inf b => cases b; exact ⟨c!"i", rfl, by decide, by decide⟩; exact ⟨c!"-", rfl, by decide, by decide⟩
  | fin b k =>
    obtain ⟨m, ⟨ip, fp, e, h1, h2, _, _, _, _⟩, _⟩ := fmtFixed_text 46 (by decide) b k
    rw [e]
    cases b with
    | true => exact ⟨c!"-", rfl, by simp, by decide⟩
    | false =>
      cases ip with
      | nil => exact absurd rfl h2
      | cons c ip =>
        refine ⟨c, rfl, by simp, ?_⟩
        rintro rfl
        have := h1 c!"f" (by simp)
        revert this; unfold Digit; decide

omit [StdSort] in
theorem kind_text (i : Inst) : (getText 46 i).head?.map kindByte = some (kindInst i) := by
  cases i with
  | boolean v => cases v <;> rfl
  | character v => rfl
  | string v => rfl
  | vector t l => rfl
  | set t l => rfl
  | dictionary t u l => rfl
  | float x =>
    obtain ⟨c, h1, h2, h3⟩ := float_head x
    simp only [getText, h1, Option.map_some, kindInst]
    rw [kind_float (x := x) (.inl h2) h3]
  | integer k =>
    have hne : intStr k ≠ [] := okReply_ne_nil' 46 (.integer k)
    cases hk : intStr k with
    | nil => exact absurd hk hne
    | cons c q =>
      have hc := intStr_bytes k c (by rw [hk]; simp)
      simp only [getText, hk, List.head?_cons, Option.map_some, kindInst]
      rw [kind_float (x := .nan) (.inr hc)]
      rintro rfl
      revert hc; unfold Digit; decide

omit [StdSort] in
theorem integer_not_float (k : Int) (x : Fl) : intStr k ≠ fmtFixed 46 x := by
  have : ∃ c, c ∈ fmtFixed 46 x ∧ ¬ (Digit c ∨ c = c!"-") := by
    cases x with
    | nan => exact ⟨c!"n", by decide, by unfold Digit; decide⟩
    | inf b => exact ⟨c!"n", by cases b <;> decide, by unfold Digit; decide⟩
    | fin b k =>
      obtain ⟨m, ⟨ip, fp, e, _⟩, _⟩ := fmtFixed_text 46 (by decide) b k
      refine ⟨c!".", ?_, by unfold Digit; decide⟩
      rw [e]; simp
  obtain ⟨c, h1, h2⟩ := this
  intro e
  rw [← e] at h1
  exact h2 (intStr_bytes k c h1)

/-! ### Everything is observed -/

omit [StdSort] in
theorem unary_statement {n m : Str} (hn : Variable n) (hm : isUnaryMessage m = true) : ∃ t, Statement t n m [] :=
  have sp : Spaces b!" " := fun b hb => by rw [List.mem_singleton.1 hb]; exact .inl rfl
  have ne : Spaces [] := fun b hb => by cases hb
  ⟨_, layout_statement [] n b!" " m [] [] _ _ ⟨ne, sp, by decide, ne, ne⟩ (variable_actor hn) (.inl ⟨(isUnaryMessage_iff _).1 hm, rfl, rfl⟩)⟩

omit [StdSort] in
theorem objectTypes_mem {t : Str} (h : ObjectType t) : t ∈ objectTypes := h

omit [StdSort] in
theorem sample_argument {t : Str} (h : ObjectType t) : Argument (sample t) := by
  revert h
  unfold ObjectType
  simp only [List.mem_cons, List.not_mem_nil, or_false]
  rintro (rfl | rfl | rfl | rfl | rfl)
  · exact .inl (.inl ((isBooleanValue_iff _).1 (by decide +kernel)))
  · exact .inl (.inr (.inl ((isCharacterValue_iff _).1 (by decide +kernel))))
  · exact .inl (.inr (.inr (.inl ((isIntegerValue_iff _).1 (by decide +kernel)))))
  · exact .inl (.inr (.inr (.inl ((isIntegerValue_iff _).1 (by decide +kernel)))))
  · exact .inl (.inr (.inr (.inr (.inr ((isStringValue_iff _).1 (by decide +kernel))))))

theorem value_observed (h : Indistinguishable pwd s c d) (hc : Reachable c) (hd : Reachable d) (h1 : c.cfg = plainCfg) (h2 : d.cfg = plainCfg)
    (hi : Holds c n i) (hj : Holds d n j) : i = j := by
  have ic := reachable_inv hc
  have id := reachable_inv hd
  have hv := inv_variable ic hi
  have hcd : c.cfg = d.cfg := h1.trans h2.symm
  have un : ∀ m, isUnaryMessage m = true → ∃ t, Statement t n m [] := fun m hm => unary_statement hv hm
  have get := un b!"get" (by decide +kernel)
  have clear := un b!"clear" (by decide +kernel)
  -- the texts are the same
  have ht : getText 46 i = getText 46 j := by
    have := talk_alike (ms := [(b!"get", [])]) (fun m hm => by rw [List.mem_singleton.1 hm]; exact get) h ic id hcd hi hj
      (rs := [getText 46 i]) (rs' := [getText 46 j]) (by simp only [talk, receive_get, outcome]; rw [h1]; rfl)
      (by simp only [talk, receive_get, outcome]; rw [h1]; rfl)
    exact (List.cons.inj this).1
  have hk : kindInst i = kindInst j := by
    have := kind_text i
    rw [ht, kind_text j] at this
    exact (Option.some.inj this).symm
  have wi := holds_wellTyped hc hi
  have wj := holds_wellTyped hd hj
  -- the types of elements
  have probe : ∀ (ms : List (Str × List Str)) (i' j' : Inst), (∀ m ∈ ms, ∃ t, Statement t n m.1 m.2) →
      outcome (receive plainCfg i b!"clear" []) = some (i', b!"null") → outcome (receive plainCfg j b!"clear" []) = some (j', b!"null") →
      (talk plainCfg i' ms).isSome = true → (talk plainCfg j' ms).isSome = true → talk plainCfg i' ms = talk plainCfg j' ms := by
    intro ms i' j' hms e1 e2 s1 s2
    obtain ⟨r1, s1⟩ := Option.isSome_iff_exists.1 s1
    obtain ⟨r2, s2⟩ := Option.isSome_iff_exists.1 s2
    have := talk_alike (ms := (b!"clear", []) :: ms) (fun m hm => by
        rcases List.mem_cons.1 hm with rfl | hm
        · exact clear
        · exact hms m hm) h ic id hcd hi hj (rs := b!"null" :: r1) (rs' := b!"null" :: r2)
      (by rw [h1]; simp only [talk, e1, s1, Option.map_some]) (by rw [h1]; simp only [talk, e2, s2, Option.map_some])
    rw [s1, s2, (List.cons.inj this).2]
  cases i with
  | boolean v =>
    cases j with
    | boolean w => cases v <;> cases w <;> first | rfl | exact absurd ht (by decide)
    | _ => cases hk
  | character v =>
    cases j with
    | character w =>
      simp only [getText, charStr, List.cons.injEq, true_and, and_true] at ht
      rw [ht]
    | _ => cases hk
  | integer v =>
    cases j with
    | integer w => rw [intStr_inj _ _ ht]
    | float x => exact absurd ht (integer_not_float v x)
    | _ => cases hk
  | float v =>
    cases j with
    | integer w => exact absurd ht.symm (integer_not_float w v)
    | float x => rw [fmtFixed_inj (by decide) wi wj ht]
    | _ => cases hk
  | string v =>
    cases j with
    | string w => rw [quoted_inj v w ht]
    | _ => cases hk
  | vector t l =>
    cases j with
    | vector t' l' =>
      have hp := List.all_eq_true.1 (List.all_eq_true.1 vec_probes t (objectTypes_mem wi.1))
      have p1 := (Bool.and_eq_true_iff.1 (hp t (objectTypes_mem wi.1))).1
      obtain ⟨p2, p3⟩ := Bool.and_eq_true_iff.1 (hp t' (objectTypes_mem wj.1))
      have e := probe (vecProbe t) (.vector t []) (.vector t' []) (fun m hm => by
        rcases List.mem_cons.1 hm with rfl | hm
        · exact ⟨_, one_statement (tok := b!"pushBack:") (variable_actor hv) (by decide +kernel) (sample_argument wi.1)⟩
        · rw [List.mem_singleton.1 hm]; exact get) rfl rfl p1 p2
      have ett : t = t' := by
        rcases Bool.or_eq_true_iff.1 p3 with p3 | p3
        · exact eq_of_beq p3
        · rw [e] at p3; simp at p3
      subst ett
      simp only [getText, vectorRepr, listText_join] at ht
      rw [listText_inj (separable46 (by decide) t) (by decide) l l' wi.2 wj.2 ht]
    | _ => cases hk
  | set t l =>
    cases j with
    | set t' l' =>
      have hp := List.all_eq_true.1 (List.all_eq_true.1 set_probes t (objectTypes_mem wi.1))
      have p1 := (Bool.and_eq_true_iff.1 (hp t (objectTypes_mem wi.1))).1
      obtain ⟨p2, p3⟩ := Bool.and_eq_true_iff.1 (hp t' (objectTypes_mem wj.1))
      have e := probe (setProbe t) (.set t []) (.set t' []) (fun m hm => by
        rcases List.mem_cons.1 hm with rfl | hm
        · exact ⟨_, one_statement (tok := b!"add:") (variable_actor hv) (by decide +kernel) (sample_argument wi.1)⟩
        · rw [List.mem_singleton.1 hm]; exact get) rfl rfl p1 p2
      have ett : t = t' := by
        rcases Bool.or_eq_true_iff.1 p3 with p3 | p3
        · exact eq_of_beq p3
        · rw [e] at p3; simp at p3
      subst ett
      simp only [getText, setRepr, listText_join] at ht
      rw [listText_inj (separable46 (by decide) t) (by decide) l l' wi.2.1 wj.2.1 ht]
    | _ => cases hk
  | dictionary t u l =>
    cases j with
    | dictionary t' u' l' =>
      have hp := List.all_eq_true.1 (List.all_eq_true.1 dict_probes t (objectTypes_mem wi.1)) u (objectTypes_mem wi.2.1)
      have hp' := fun t' ht' => List.all_eq_true.1 (List.all_eq_true.1 hp t' ht')
      have p1 := (Bool.and_eq_true_iff.1 (hp' t (objectTypes_mem wi.1) u (objectTypes_mem wi.2.1))).1
      obtain ⟨p2, p3⟩ := Bool.and_eq_true_iff.1 (hp' t' (objectTypes_mem wj.1) u' (objectTypes_mem wj.2.1))
      have e := probe (dictProbe t u) (.dictionary t u []) (.dictionary t' u' []) (fun m hm => by
        rcases List.mem_cons.1 hm with rfl | hm
        · exact ⟨_, two_statement (tok := b!"associateValue:") (tok' := b!"withKey:") (variable_actor hv) (by decide +kernel) (by decide +kernel) (sample_argument wi.2.1) (sample_argument wi.1)⟩
        · rw [List.mem_singleton.1 hm]; exact get) rfl rfl p1 p2
      have ett : t = t' ∧ u = u' := by
        rcases Bool.or_eq_true_iff.1 p3 with p3 | p3
        · obtain ⟨p3, p4⟩ := Bool.and_eq_true_iff.1 p3
          exact ⟨eq_of_beq p3, eq_of_beq p4⟩
        · rw [e] at p3; simp at p3
      obtain ⟨rfl, rfl⟩ := ett
      simp only [getText, dictRepr, listText_join] at ht
      have hf : ∀ kv : Obj × Obj, c!"(" :: (kv.1.repr 46 ++ c!"," :: (kv.2.repr 46 ++ [c!")"])) = listText c!"(" c!")" [kv.1.repr 46, kv.2.repr 46] :=
        fun kv => by simp [listText, List.intercalate]
      simp only [hf] at ht
      rw [listText_inj (separable46_pair (by decide) t u) (by decide) l l' wi.2.2.1 wj.2.2.1 ht]
    | _ => cases hk

end

end Knuckle

/-
C98: a dictionary as a map of arbitrary byte sequences, for any number of clients.
-/
import Verif.Spec.Client
import Verif.Props.Template
import Verif.Props.Reads
import Verif.Props.Schedules

namespace Knuckle.Props

open Spec

variable {pwd d : Str} {c c' : Ctx}

/-! ### Hexadecimal -/

theorem hexDigit_toNat : ∀ n : Nat, n < 16 → (hexDigit n).toNat = if n < 10 then 48 + n else 87 + n := by decide

theorem digitValue_hexDigit : ∀ n : Nat, n < 16 → digitValue (hexDigit n) = n := by decide

theorem unhex_hex : ∀ v : Str, unhexText (hexText v) = v
  | [] => rfl
  | c :: s => by
    rw [hexText, unhexText, unhex_hex s, digitValue_hexDigit _ (by have := c.toNat_lt; omega), digitValue_hexDigit _ (by omega)]
    congr 1
    rw [Nat.div_add_mod]
    exact UInt8.ofNat_toNat

theorem hex_inj {v w : Str} (h : hexText v = hexText w) : v = w := by rw [← unhex_hex v, h, unhex_hex]

theorem hex_length : ∀ v : Str, (hexText v).length = 2 * v.length
  | [] => rfl
  | c :: s => by rw [hexText, List.length_cons, List.length_cons, hex_length s, List.length_cons]; omega

theorem hex_plain : ∀ {v : Str} {x : Byte}, x ∈ hexText v → 48 ≤ x.toNat ∧ x.toNat ≤ 57 ∨ 97 ≤ x.toNat ∧ x.toNat ≤ 102
  | c :: s, x, h => by
    have key : ∀ n, n < 16 → (48 ≤ (hexDigit n).toNat ∧ (hexDigit n).toNat ≤ 57 ∨ 97 ≤ (hexDigit n).toNat ∧ (hexDigit n).toNat ≤ 102) := by
      decide
    rw [hexText, List.mem_cons, List.mem_cons] at h
    rcases h with rfl | rfl | h
    · exact key _ (by have := c.toNat_lt; omega)
    · exact key _ (by omega)
    · exact hex_plain h

theorem plain_body : ∀ {v : Str}, (∀ x ∈ v, x ≠ c!"\"" ∧ x ≠ c!"\\") → StringBody v ∧ Unquoted v v
  | [], _ => ⟨.nil, .nil⟩
  | c :: s, h => by
    obtain ⟨h1, h2⟩ := h c (List.mem_cons_self ..)
    obtain ⟨h3, h4⟩ := plain_body fun x hx => h x (List.mem_cons_of_mem _ hx)
    exact ⟨.plain h1 h2 h3, .other h1 (fun e => absurd e h2) h4⟩

theorem hex_literal (v : Str) : StringBody (hexText v) ∧ StringLiteral (inQuotes (hexText v)) (hexText v) := by
  obtain ⟨h1, h2⟩ := plain_body (v := hexText v) fun x hx => by
    have := hex_plain hx
    constructor <;> (rintro rfl; revert this; decide)
  exact ⟨h1, _, rfl, h1, h2⟩

/-! ### The request lines -/

theorem spaces_one : Spaces b!" " := by intro c hc; simp at hc; subst hc; left; rfl

theorem rest_end : Spec.Rest b!";" [] [] := Spec.Rest.done (w := []) (w' := []) (by intro c hc; cases hc) (by intro c hc; cases hc)

theorem rest_one {tok a : Str} (ht : Token tok) (ha : Argument a) {p n : Str} {l : List Str} (h : Spec.Rest p n l) :
    Spec.Rest (b!" " ++ (tok ++ (b!" " ++ (a ++ p)))) (tok ++ n) (a :: l) := Spec.Rest.part spaces_one (by decide) ht spaces_one ha h

/-- The message of a command. -/
def message : Command → Str × List Str
  | .put k v => (b!"associateValue:withKey:", [inQuotes (hexText v), inQuotes (hexText k)])
  | .get k => (b!"getValueForKey:", [inQuotes (hexText k)])
  | .has k => (b!"containsKey?", [inQuotes (hexText k)])
  | .remove k => (b!"removeKey:", [inQuotes (hexText k)])

theorem line_statement (hd : Variable d) (k : Command) : Statement (k.line d) d (message k).1 (message k).2 := by
  have ha : Actor d := .inr (.inr (.inr hd))
  have hq : ∀ v, Argument (inQuotes (hexText v)) := fun v => string_argument (hex_literal v).1
  have hn : Spaces [] := by intro c hc; cases hc
  cases k with
  | put k v =>
    have := rest_statement hn ha (rest_one (tok := b!"associateValue:") ((isKeywordMessageToken_iff _).1 (by decide +kernel)) (hq v)
      (rest_one (tok := b!"withKey:") ((isKeywordMessageToken_iff _).1 (by decide +kernel)) (hq k) rest_end)) (by simp)
    simpa [Command.line, message, inQuotes] using this
  | get k =>
    have := rest_statement hn ha (rest_one (tok := b!"getValueForKey:") ((isKeywordMessageToken_iff _).1 (by decide +kernel)) (hq k) rest_end) (by simp)
    simpa [Command.line, message, inQuotes] using this
  | has k =>
    have := rest_statement hn ha (rest_one (tok := b!"containsKey?") ((isKeywordMessageToken_iff _).1 (by decide +kernel)) (hq k) rest_end) (by simp)
    simpa [Command.line, message, inQuotes] using this
  | remove k =>
    have := rest_statement hn ha (rest_one (tok := b!"removeKey:") ((isKeywordMessageToken_iff _).1 (by decide +kernel)) (hq k) rest_end) (by simp)
    simpa [Command.line, message, inQuotes] using this

theorem identifier_no_newline {i : Str} (h : Identifier i) : (10 : Byte) ∉ i := by
  obtain ⟨⟨x, r, rfl, hx, hr⟩, _⟩ := h
  intro hm
  rcases List.mem_cons.1 hm with e | e
  · rw [← e] at hx; revert hx; decide
  · have := hr _ e; revert this; decide

theorem variable_no_newline (h : Variable d) : (10 : Byte) ∉ d := by
  rcases h with h | ⟨n, i, rfl, hn, hi⟩
  · exact identifier_no_newline h
  · have h1 := identifier_no_newline hn
    have h2 := identifier_no_newline hi
    simp [h1, h2]

/-- C98: what the client sends is one line. -/
theorem C98_one_line (hd : Variable d) (k : Command) : (10 : Byte) ∉ k.line d := by
  have h1 : (10 : Byte) ∉ d := variable_no_newline hd
  have h2 : ∀ v, (10 : Byte) ∉ hexText v := fun v h => by have := hex_plain h; revert this; decide
  cases k <;> simp [Command.line, h1, h2]

/-- C98: the client decodes what it has encoded. -/
theorem C98_decode (v : Str) : decodeReply (inQuotes (hexText v)) = some v ∧ decodeReply b!"null" = none := by
  refine ⟨?_, rfl⟩
  rw [decodeReply, if_neg (by simp [inQuotes])]
  simp [inQuotes, unhex_hex]

/-! ### The map -/

theorem literal_denotes (v : Str) : Denotes b!"String" (inQuotes (hexText v)) (.string (hexText v)) := .string (hex_literal v).2

theorem literal_same {v : Str} {o : Obj} (h : Denotes b!"String" (inQuotes (hexText v)) o) : o = .string (hexText v) :=
  denotes_unique h (literal_denotes v)

theorem commands_updates (hd : Variable d) {log : List Request} {cs : List Command} (h : CommandsOf d log cs) :
    ∃ ops, UpdatesOf d log ops ∧
      ops.map (fun x => (x.1, x.2.1)) = (cs.map message).filter fun x => !decide (Question x.1) := by
  induction h with
  | nil => exact ⟨[], .nil, rfl⟩
  | @command q log cs k e ha _ ih =>
    obtain ⟨ops, h1, h2⟩ := ih
    have hs := line_statement hd k
    rw [← e] at hs
    by_cases hq : Question (message k).1
    · refine ⟨ops, .other (.inr (.inl ⟨_, _, hs, hq⟩)) h1, ?_⟩
      rw [List.map_cons, List.filter_cons_of_neg (by simpa using hq), h2]
    · refine ⟨((message k).1, (message k).2, q.reply) :: ops, .update hs hq ha h1, ?_⟩
      rw [List.map_cons, List.map_cons, List.filter_cons_of_pos (by simpa using hq), h2]
  | other ho _ ih =>
    obtain ⟨ops, h1, h2⟩ := ih
    exact ⟨ops, .other (ho.elim .inl fun h => .inr (.inr h)) h1, h2⟩

theorem valueAfter_snoc {t u : Str} {l : List (Obj × Obj)} {ops : List (Str × List Str × Str)} {op : Str × List Str × Str} {k v : Obj} :
    ValueAfter t u l (ops ++ [op]) k v ↔ Associates t u k v op ∨ (¬ Rewrites t u k op ∧ ValueAfter t u l ops k v) := by
  unfold ValueAfter
  constructor
  · rintro (⟨p, x, q, e, h1, h2⟩ | ⟨h1, h2⟩)
    · rcases List.eq_nil_or_concat q with rfl | ⟨q', y, rfl⟩
      · obtain ⟨_, e2⟩ := List.append_inj' e rfl
        obtain ⟨rfl, _⟩ := List.cons.inj e2
        exact .inl h1
      · rw [List.concat_eq_append] at e h2
        rw [← List.cons_append, ← List.append_assoc] at e
        obtain ⟨e1, e2⟩ := List.append_inj' e rfl
        obtain ⟨rfl, _⟩ := List.cons.inj e2
        exact .inr ⟨h2 _ (by simp), .inl ⟨p, x, q', e1, h1, fun z hz => h2 z (by simp [hz])⟩⟩
    · exact .inr ⟨h2 op (by simp), .inr ⟨h1, fun x hx => h2 x (by simp [hx])⟩⟩
  · rintro (h | ⟨h, ⟨p, x, q, e, h1, h2⟩ | ⟨h1, h2⟩⟩)
    · exact .inl ⟨ops, op, [], rfl, h, by simp⟩
    · refine .inl ⟨p, x, q ++ [op], by rw [e]; simp, h1, fun z hz => ?_⟩
      rcases List.mem_append.1 hz with hz | hz
      · exact h2 z hz
      · rw [List.mem_singleton.1 hz]; exact h
    · refine .inr ⟨h1, fun z hz => ?_⟩
      rcases List.mem_append.1 hz with hz | hz
      · exact h2 z hz
      · rw [List.mem_singleton.1 hz]; exact h

theorem rewrites_of {k : Command} {op : Str × List Str × Str} (e : (op.1, op.2.1) = message k) (x : Obj) :
    (∀ y, Associates b!"String" b!"String" x y op ↔
      ∃ a v, k = .put a v ∧ x = .string (hexText a) ∧ y = .string (hexText v)) ∧
    (RemovesKey b!"String" x op ↔ ∃ a, k = .remove a ∧ x = .string (hexText a)) := by
  obtain ⟨e1, e2⟩ := Prod.mk.inj e
  unfold Associates RemovesKey
  rw [e1, e2]
  cases k with
  | put k v =>
    refine ⟨fun y => ⟨?_, ?_⟩, ?_⟩
    · rintro ⟨a, b, _, h2, h3, h4⟩
      simp only [message, List.cons.injEq, and_true] at h2
      obtain ⟨rfl, rfl⟩ := h2
      exact ⟨k, v, rfl, literal_same h4, literal_same h3⟩
    · rintro ⟨_, _, h, rfl, rfl⟩
      cases h
      exact ⟨_, _, rfl, rfl, literal_denotes v, literal_denotes k⟩
    · constructor
      · rintro (h | ⟨_, h, _⟩) <;> exact absurd h (by simp [message])
      · rintro ⟨_, h, _⟩; cases h
  | remove k =>
    refine ⟨fun y => ⟨?_, ?_⟩, ?_⟩
    · rintro ⟨a, b, h, _⟩; exact absurd h (by simp [message])
    · rintro ⟨_, _, h, _⟩; cases h
    · constructor
      · rintro (h | ⟨a, _, h2, h3⟩)
        · exact absurd h (by simp [message])
        · simp only [message, List.cons.injEq, and_true] at h2
          subst h2
          exact ⟨k, rfl, literal_same h3⟩
      · rintro ⟨_, h, rfl⟩
        cases h
        exact .inr ⟨_, rfl, rfl, literal_denotes k⟩
  | get k =>
    refine ⟨fun y => ⟨?_, ?_⟩, ?_⟩
    · rintro ⟨a, b, h, _⟩; exact absurd h (by simp [message])
    · rintro ⟨_, _, h, _⟩; cases h
    · constructor
      · rintro (h | ⟨_, h, _⟩) <;> exact absurd h (by simp [message])
      · rintro ⟨_, h, _⟩; cases h
  | has k =>
    refine ⟨fun y => ⟨?_, ?_⟩, ?_⟩
    · rintro ⟨a, b, h, _⟩; exact absurd h (by simp [message])
    · rintro ⟨_, _, h, _⟩; cases h
    · constructor
      · rintro (h | ⟨_, h, _⟩) <;> exact absurd h (by simp [message])
      · rintro ⟨_, h, _⟩; cases h

theorem question_next {k : Command} (h : Question (message k).1) (σ : Store) : k.next σ = σ := by
  cases k with
  | put => exact absurd h (by simp only [message]; decide)
  | remove => exact absurd h (by simp only [message]; decide)
  | get => rfl
  | has => rfl

theorem values_represent {l : List (Obj × Obj)} {σ : Store} (h0 : Represents l σ) (cs : List Command) {ops : List (Str × List Str × Str)}
    (h : ops.map (fun x => (x.1, x.2.1)) = (cs.map message).filter fun x => !decide (Question x.1)) (x y : Obj) :
    ValueAfter b!"String" b!"String" l ops x y ↔
      ∃ k v, x = .string (hexText k) ∧ y = .string (hexText v) ∧ (cs.foldl Command.next σ) k = some v := by
  induction cs using List.reverseRecOn generalizing ops x y with
  | nil =>
    simp at h; subst h
    rw [List.foldl_nil, ← h0 x y]
    simp [ValueAfter]
  | append_singleton cs k ih =>
    rw [List.map_append, List.filter_append, List.map_singleton] at h
    rw [List.foldl_append, List.foldl_cons, List.foldl_nil]
    by_cases hq : Question (message k).1
    · rw [List.filter_cons_of_neg (by simpa using hq), List.filter_nil, List.append_nil] at h
      rw [question_next hq]
      exact ih h x y
    · rw [List.filter_cons_of_pos (by simpa using hq), List.filter_nil] at h
      rcases List.eq_nil_or_concat ops with rfl | ⟨ops', op, rfl⟩
      · simp at h
      rw [List.concat_eq_append] at h ⊢
      rw [List.map_append, List.map_singleton] at h
      obtain ⟨h1, h2⟩ := List.append_inj' h rfl
      obtain ⟨h2, _⟩ := List.cons.inj h2
      obtain ⟨r1, r2⟩ := rewrites_of h2 x
      rw [valueAfter_snoc, r1, ih h1]
      have r3 : Rewrites b!"String" b!"String" x op ↔ ∃ a, (k = .remove a ∨ ∃ v, k = .put a v) ∧ x = .string (hexText a) := by
        unfold Rewrites
        rw [r2]
        constructor
        · rintro (⟨y, hy⟩ | ⟨a, h, e⟩)
          · obtain ⟨a, v, rfl, e, _⟩ := (r1 y).1 hy; exact ⟨a, .inr ⟨v, rfl⟩, e⟩
          · exact ⟨a, .inl h, e⟩
        · rintro ⟨a, h | ⟨v, h⟩, e⟩
          · exact .inr ⟨a, h, e⟩
          · exact .inl ⟨_, (r1 _).2 ⟨a, v, h, e, rfl⟩⟩
      rw [r3]
      have hh : ∀ {a b : Str}, (Obj.string (hexText a) = .string (hexText b)) → a = b := fun e => hex_inj (Obj.string.inj e)
      cases k with
      | get => exact absurd (by simp only [message]; decide) hq
      | has => exact absurd (by simp only [message]; decide) hq
      | put k v =>
        constructor
        · rintro (⟨a, w, e, rfl, rfl⟩ | ⟨h3, a, w, rfl, rfl, h4⟩)
          · cases e; exact ⟨k, v, rfl, rfl, by simp [Command.next]⟩
          · refine ⟨a, w, rfl, rfl, ?_⟩
            have : a ≠ k := fun e => h3 ⟨k, .inr ⟨v, rfl⟩, by rw [e]⟩
            simp [Command.next, this, h4]
        · rintro ⟨a, w, rfl, rfl, h4⟩
          by_cases e : a = k
          · subst e
            simp [Command.next] at h4; subst h4
            exact .inl ⟨a, v, rfl, rfl, rfl⟩
          · simp [Command.next, e] at h4
            refine .inr ⟨?_, a, w, rfl, rfl, h4⟩
            rintro ⟨b, h | ⟨_, h⟩, e'⟩
            · cases h
            · cases h; exact e (hh e')
      | remove k =>
        constructor
        · rintro (⟨a, w, e, _⟩ | ⟨h3, a, w, rfl, rfl, h4⟩)
          · cases e
          · refine ⟨a, w, rfl, rfl, ?_⟩
            have : a ≠ k := fun e => h3 ⟨k, .inl rfl, by rw [e]⟩
            simp [Command.next, this, h4]
        · rintro ⟨a, w, rfl, rfl, h4⟩
          by_cases e : a = k
          · subst e; simp [Command.next] at h4
          · simp [Command.next, e] at h4
            refine .inr ⟨?_, a, w, rfl, rfl, h4⟩
            rintro ⟨b, h | ⟨_, h⟩, e'⟩
            · cases h; exact e (hh e')
            · cases h

/-- C98: as long as everybody uses the dictionary through such clients, every command of an authenticated one is answered as by one map of byte
sequences to which all accepted commands before, of all clients, have been applied one after the other. -/
theorem C98_store [StdSort] {l₀ : List (Obj × Obj)} {σ : Store} {l l' : List Request} {q : Request} {cs : List Command} {k : Command}
    (hc : Reachable c) (hn : Holds c d (.dictionary b!"String" b!"String" l₀)) (h0 : Represents l₀ σ)
    (h : Serial pwd c (l ++ q :: l') c') (hl : CommandsOf d l cs) (hq : q.line = k.line d) (ha : Authenticated pwd l q.conn) :
    k.Answered (cs.foldl Command.next σ) q.reply := by
  have hd : Variable d := holds_variable hc hn
  obtain ⟨ops, h1, h2⟩ := commands_updates hd hl
  obtain ⟨x, hx⟩ := serial_prefix (l1 := l ++ [q]) (l2 := l') (by simpa using h)
  obtain ⟨e, he, _, h3⟩ := serial_snoc hx
  have hs := line_statement hd k
  rw [← hq] at hs
  obtain ⟨s, s', _, _, h4⟩ | ⟨h5, _⟩ := h3
  swap
  · exact absurd ha h5
  have hre := serial_reachable hc he
  obtain ⟨_, i, hi, hch⟩ := updates_chain hc hn (serial_updates he h1)
  obtain ⟨le, rfl, h6⟩ := chain_dict (by decide) hch
  have h7 : Represents le (cs.foldl Command.next σ) := fun x y => (h6 x y).trans (values_represent h0 cs h2 x y)
  have reply : ∀ {r : Str} {y : Ctx}, Replies pwd e (some s) q.line r y → q.reply = r := by
    intro r y hy
    unfold Replies at hy
    rw [h4] at hy; cases hy; rfl
  have hs' : ∀ {x : Obj} {a : Str} {v : Obj}, (x, v) ∈ le → x = .string (hexText a) → ∃ w, v = .string (hexText w) ∧ (cs.foldl Command.next σ) a = some w := by
    intro x a v hv ex
    obtain ⟨a', w, e1, e2, e3⟩ := (h7 x v).1 hv
    rw [ex] at e1
    have := hex_inj (Obj.string.inj e1); subst this
    exact ⟨w, e2, e3⟩
  cases k with
  | put a v =>
    have h8 := answers_dict (pwd := pwd) (s := some s) hre hi hs (.associate (literal_denotes v) (literal_denotes a))
    have hw := holds_wellTyped hre hi
    simp only [dictMeaning] at h8
    rw [if_pos (dict_searchable (by decide) e.cfg.eps hw (denotes_type (literal_denotes a)))] at h8
    split at h8 <;> (obtain ⟨y, hy, _⟩ := h8; exact reply hy)
  | remove a =>
    have h8 := answers_dict (pwd := pwd) (s := some s) hre hi hs (.removeKey (literal_denotes a))
    have hw := holds_wellTyped hre hi
    simp only [dictMeaning] at h8
    rw [if_pos (dict_searchable (by decide) e.cfg.eps hw (denotes_type (literal_denotes a)))] at h8
    obtain ⟨y, hy, _⟩ := h8; exact reply hy
  | get a =>
    by_cases hv : ∃ v, (Obj.string (hexText a), v) ∈ le
    · obtain ⟨v, hv⟩ := hv
      obtain ⟨w, rfl, h9⟩ := hs' hv rfl
      obtain ⟨y, hy, _⟩ := C24_getValueForKey (pwd := pwd) (s := some s) (by decide) hre hi hs (literal_denotes a) hv
      have h10 : q.reply = inQuotes (hexText w) := (reply hy).trans (literal_quoted _ _ (hex_literal w).2)
      simp only [Command.Answered]
      rw [h10, h9]
      refine ⟨(C98_decode w).1, ?_⟩
      rintro v e; cases e
      simp [inQuotes, hex_length]
    · obtain ⟨y, hy, _⟩ := C24_getValueForKey_unknown (pwd := pwd) (s := some s) (by decide) hre hi hs (literal_denotes a)
        fun v h => hv ⟨v, h⟩
      simp only [Command.Answered]
      rw [reply hy, (C98_decode []).2]
      cases h9 : cs.foldl Command.next σ a with
      | none => exact ⟨rfl, fun v e => by cases e⟩
      | some w => exact absurd ⟨_, (h7 _ _).2 ⟨a, w, rfl, rfl, h9⟩⟩ hv
  | has a =>
    obtain ⟨y, hy, _⟩ := C24_containsKey (pwd := pwd) (s := some s) (by decide) hre hi hs (literal_denotes a)
    simp only [Command.Answered]
    rw [reply hy]
    have h9 : Obj.string (hexText a) ∈ le.map (·.1) ↔ (cs.foldl Command.next σ a).isSome = true := by
      constructor
      · intro h
        obtain ⟨⟨x, v⟩, hv, rfl⟩ := List.mem_map.1 h
        obtain ⟨w, _, h9⟩ := hs' hv rfl
        rw [h9]; rfl
      · intro h
        obtain ⟨w, hw⟩ := Option.isSome_iff_exists.1 h
        exact List.mem_map.2 ⟨(_, _), (h7 _ _).2 ⟨a, w, rfl, rfl, hw⟩, rfl⟩
    unfold truth
    by_cases hh : (cs.foldl Command.next σ a).isSome = true
    · rw [if_pos hh, if_pos (h9.2 hh)]
    · rw [if_neg hh, if_neg fun h => hh (h9.1 h)]

/-- C98: a new dictionary represents the map that is nowhere defined. -/
theorem C98_empty : Represents [] fun _ => none := by
  intro x y
  simp

/-- C98: a log in which all requests that concern the dictionary are commands is of the form the theorems speak of. -/
theorem C98_every_history {log : List Request} (h : ∀ q ∈ log, (∃ k : Command, q.line = k.line d) ∨ ¬ Concerns q.line d) :
    ∃ cs, CommandsOf d log cs := by
  induction log with
  | nil => exact ⟨[], .nil⟩
  | cons q log ih =>
    obtain ⟨cs, hcs⟩ := ih fun x hx => h x (List.mem_cons_of_mem _ hx)
    rcases h q (List.mem_cons_self ..) with ⟨k, hk⟩ | hk
    · by_cases ha : q.accepted
      · exact ⟨k :: cs, .command k hk ha hcs⟩
      · exact ⟨cs, .other (.inl ha) hcs⟩
    · exact ⟨cs, .other (.inr hk) hcs⟩

/-- C98: the same for every schedule of a server. -/
theorem C98_server [StdSort] {es : List Event} {s : Server} {l₀ : List (Obj × Obj)} {σ : Store} (hc : Reachable c)
    (hn : Holds c d (.dictionary b!"String" b!"String" l₀)) (h0 : Represents l₀ σ) (h : run (Server.init pwd c) es = some (.done s)) :
    ∃ log, Explains pwd c es s log ∧ ∀ l q l' cs k, log = l ++ q :: l' → CommandsOf d l cs → q.line = Command.line d k →
      Authenticated pwd l q.conn → k.Answered (cs.foldl Command.next σ) q.reply := by
  obtain ⟨log, hl⟩ := C44_serialized hc h
  refine ⟨log, hl, ?_⟩
  rintro l q l' cs k rfl h1 h2 h3
  exact C98_store hc hn h0 hl.serial h1 h2 h3

/-- C98: the replies are short enough to be delivered (C47) as long as no value has more than 32766 bytes. -/
theorem C98_reply_size {k : Command} {σ : Store} {r : Str} (h : k.Answered σ r) (hv : ∀ a v, σ a = some v → v.length ≤ 32766) :
    r.length + 1 ≤ 65536 := by
  cases k with
  | get a =>
    obtain ⟨h1, h2⟩ := h
    cases e : σ a with
    | none =>
      rw [e, decodeReply] at h1
      split at h1
      · rename_i e'; rw [e']; decide
      · cases h1
    | some v => have := h2 v e; have := hv a v e; omega
  | put => simp only [Command.Answered] at h; rw [h]; decide
  | remove => simp only [Command.Answered] at h; rw [h]; decide
  | has a =>
    simp only [Command.Answered, truth] at h
    rw [h]; split <;> decide

/-! ### An example -/

/-- A context with a new dictionary. -/
def emptyStore : Ctx := { fresh with vars := [(b!"d", .dictionary b!"String" b!"String" [])] }

theorem emptyStore_reachable [StdSort] : Reachable emptyStore :=
  after_reachable (pwd := []) (s := none) (ts := [b!"Dictionary<String,String> create: d;"]) fresh_reachable (by kernel_rfl)

/-- One client stores a value of three bytes: a quote, a newline and a zero. -/
example : Command.line b!"d" (.put b!"\\" [34, 10, 0]) = b!"d associateValue: \"220a00\" withKey: \"5c\";" ∧
    Command.line b!"d" (.get b!"\\") = b!"d getValueForKey: \"5c\";" ∧ decodeReply b!"\"220a00\"" = some [34, 10, 0] := by decide +kernel

/-- Another one reads it. -/
def storeEvents : List Event := [
  .accept, .accept, .recv 0 (Command.line b!"d" (.put b!"\\" [34, 10, 0]) ++ [10]), .read 0, .wrote 0,
  .recv 1 (Command.line b!"d" (.get b!"\\") ++ [10]), .read 1, .wrote 1]

example [StdSort] : ∃ s, run (Server.init [] emptyStore) storeEvents = some (.done s) ∧
    s.conns.map Conn.out = [b!"null\n", b!"\"220a00\"\n"] ∧ Reachable emptyStore ∧
    Holds emptyStore b!"d" (.dictionary b!"String" b!"String" []) ∧ Represents [] (fun _ => none) ∧
    CommandsOf b!"d" [⟨0, Command.line b!"d" (.put b!"\\" [34, 10, 0]), b!"null"⟩] [.put b!"\\" [34, 10, 0]] :=
  ⟨{ pwd := [], ctx := { emptyStore with vars := [(b!"d", .dictionary b!"String" b!"String" [(.string b!"5c", .string b!"220a00")])] },
      accepting := true, conns := [
      { sess := ⟨true, true⟩, inbuf := [], phase := .reading, out := b!"null\n" },
      { sess := ⟨true, true⟩, inbuf := [], phase := .reading, out := b!"\"220a00\"\n" }] },
    by kernel_rfl, rfl, emptyStore_reachable, by decide +kernel, C98_empty, .command _ rfl (by unfold Request.accepted; decide) .nil⟩

end Knuckle.Props

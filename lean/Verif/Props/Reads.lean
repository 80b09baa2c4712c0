/-
C79: what a client reads is what was last written, whoever wrote it.

`Serial pwd c log c'` is what C44 provides for every schedule of the server; `UpdatesOf n log ops` picks the accepted messages
of all clients to the variable `n` that are not questions (C67_every_history: every log in which `n` is not deleted has them).
-/
import Verif.Props.Concurrency

namespace Knuckle.Props

open Spec

variable {pwd : Str} {c c' : Ctx} {n t u a : Str} {l l' : List Request} {q : Request} {ops : List (Str × List Str × Str)}

/-- The reply to a request of an authenticated client is that of `execute` after all requests before it. -/
theorem read_at [StdSort] (h : Serial pwd c (l ++ q :: l') c') (ha : Authenticated pwd l q.conn) :
    ∃ d s, Serial pwd c l d ∧ ∀ r, JustReplies pwd d s q.line r → q.reply = r := by
  obtain ⟨x, hx⟩ := serial_prefix (l1 := l ++ [q]) (l2 := l') (by simpa using h)
  obtain ⟨d, hd, _, ⟨s, s', _, _, h3⟩ | ⟨h1, _⟩⟩ := serial_snoc hx
  · refine ⟨d, some s, hd, ?_⟩
    rintro r ⟨y, hy, _⟩
    unfold Replies at hy
    rw [h3] at hy
    cases hy; rfl
  · exact absurd ha h1

theorem chain_snoc {i i'' : Inst} {op : Str × List Str × Str} (h : Chain i (ops ++ [op]) i'') :
    ∃ cfg i', Chain i ops i' ∧ Behaves cfg i' op.1 op.2.1 (.gives i'' op.2.2) := by
  induction ops generalizing i with
  | nil =>
    cases h with
    | cons h1 h2 h3 h4 => cases h4; exact ⟨_, i, .nil, h2⟩
  | cons x ops ih =>
    cases h with
    | cons h1 h2 h3 h4 =>
      obtain ⟨cfg, i', a, b⟩ := ih h4
      exact ⟨cfg, i', .cons h1 h2 h3 a, b⟩

/-- A scalar stays a scalar of its type. -/
theorem scalar_step {cfg : Cfg} {o : Obj} {i : Inst} {name r : Str} {args : List Str}
    (h : Behaves cfg (ofObj o) name args (.gives i r)) : ∃ o', i = ofObj o' ∧ o'.type = o.type := by
  generalize hx : Result.gives i r = x at h
  cases o <;> (cases h; obtain ⟨w, _, rfl⟩ := map_gives hx.symm) <;> first
    | exact ⟨.boolean w, rfl, rfl⟩
    | exact ⟨.character w, rfl, rfl⟩
    | exact ⟨.integer w, rfl, rfl⟩
    | exact ⟨.float w, rfl, rfl⟩
    | exact ⟨.string w, rfl, rfl⟩

theorem scalar_chain {o : Obj} {i : Inst} (h : Chain (ofObj o) ops i) : ∃ o', i = ofObj o' ∧ o'.type = o.type := by
  generalize hj : ofObj o = j at h
  induction h generalizing o with
  | nil => exact ⟨o, hj.symm, rfl⟩
  | cons _ h2 _ _ ih =>
    subst hj
    obtain ⟨o', rfl, h3⟩ := scalar_step h2
    obtain ⟨o'', h4, h5⟩ := ih rfl
    exact ⟨o'', h4, h5.trans h3⟩

/-- `set:` makes a scalar have the value of its argument. -/
theorem scalar_set {cfg : Cfg} {o : Obj} {i : Inst} {r : Str} (h : Behaves cfg (ofObj o) b!"set:" [a] (.gives i r)) :
    ∃ o', i = ofObj o' ∧ Denotes o.type a o' := by
  generalize hx : Result.gives i r = x at h
  generalize hn : b!"set:" = name at h
  generalize hl : [a] = args at h
  generalize hi : ofObj o = j at h
  cases h with
  | boolean hm =>
    cases o <;> cases hi
    obtain ⟨w, e, rfl⟩ := map_gives hx.symm
    cases hm <;> first | exact absurd hn (by decide) | skip
    rename_i hd; cases hl; cases e; exact ⟨.boolean w, rfl, hd⟩
  | character hm =>
    cases o <;> cases hi
    obtain ⟨w, e, rfl⟩ := map_gives hx.symm
    cases hm <;> first | exact absurd hn (by decide) | skip
    cases hl; cases e; exact ⟨.character w, rfl, .character w⟩
  | integer hm =>
    cases o <;> cases hi
    obtain ⟨w, e, rfl⟩ := map_gives hx.symm
    cases hm <;> first | exact absurd hn (by decide) | skip
    rename_i hd; cases hl; cases e; exact ⟨.integer w, rfl, hd⟩
  | float hm =>
    cases o <;> cases hi
    obtain ⟨w, e, rfl⟩ := map_gives hx.symm
    cases hm <;> first | exact absurd hn (by decide) | skip
    rename_i hd; cases hl; cases e; exact ⟨.float _, rfl, .float hd⟩
  | string hm =>
    cases o <;> cases hi
    obtain ⟨w, e, rfl⟩ := map_gives hx.symm
    cases hm <;> first | exact absurd hn (by decide) | skip
    rename_i hd; cases hl; cases e; exact ⟨.string w, rfl, .string hd⟩
  | _ => cases o <;> cases hi

theorem scalar_get [StdSort] {s : Option Session} {text : Str} {o : Obj} (hc : Reachable c) (hn : Holds c n (ofObj o))
    (h : Statement text n b!"get" []) : JustReplies pwd c s text (o.repr c.cfg.prec) := by
  cases o with
  | boolean v => exact justReplies_of hc hn (answers_bool hc hn h .get)
  | character v => exact justReplies_of hc hn (answers_char hc hn h .get)
  | integer v => exact justReplies_of hc hn (answers_int hc hn h .get)
  | float v => exact justReplies_of hc hn (answers_flt hc hn h .get)
  | string v => exact justReplies_of hc hn (answers_str hc hn h .get)

/-- C79: registers: if the last accepted message of any client to a Boolean, Character, Integer, Float or String (that is not a
question) was `set:`, then `get` answers, to whomever, the printed form of exactly the value that was set. -/
theorem C79_register [StdSort] {o₀ : Obj} {r : Str} (hc : Reachable c) (hn : Holds c n (ofObj o₀)) (h : Serial pwd c (l ++ q :: l') c')
    (ha : Authenticated pwd l q.conn) (ho : UpdatesOf n l (ops ++ [(b!"set:", [a], r)])) (hq : Statement q.line n b!"get" []) :
    ∃ o d, Denotes o₀.type a o ∧ Serial pwd c l d ∧ q.reply = o.repr d.cfg.prec := by
  obtain ⟨d, s, hd, hr⟩ := read_at h ha
  obtain ⟨rd, i, hi, hch⟩ := updates_chain hc hn (serial_updates hd ho)
  obtain ⟨cfg, i', h1, h2⟩ := chain_snoc hch
  obtain ⟨o', rfl, h3⟩ := scalar_chain h1
  obtain ⟨o, rfl, h4⟩ := scalar_set h2
  rw [h3] at h4
  exact ⟨o, d, h4, hd, hr _ (scalar_get rd hi hq)⟩

/-- C79: the printed form of what is not a float does not depend on the precision: so the reply is known. -/
theorem C79_register_reply [StdSort] {o₀ o : Obj} {r : Str} (hc : Reachable c) (hn : Holds c n (ofObj o₀)) (h : Serial pwd c (l ++ q :: l') c')
    (ha : Authenticated pwd l q.conn) (ho : UpdatesOf n l (ops ++ [(b!"set:", [a], r)])) (hq : Statement q.line n b!"get" [])
    (hd : Denotes o₀.type a o) (hf : o₀.type ≠ b!"Float") (p : Int) : q.reply = o.repr p := by
  obtain ⟨o', d, h1, _, h2⟩ := C79_register hc hn h ha ho hq
  rw [denotes_unique h1 hd] at h2
  rw [h2]
  cases o with
  | float x =>
    generalize ht : o₀.type = t at hd hf
    cases hd; exact absurd rfl hf
  | _ => rfl

/-- C79: a variable that nobody changes keeps its value. -/
theorem C79_unchanged [StdSort] {o₀ : Obj} (hc : Reachable c) (hn : Holds c n (ofObj o₀)) (h : Serial pwd c (l ++ q :: l') c')
    (ha : Authenticated pwd l q.conn) (ho : UpdatesOf n l []) (hq : Statement q.line n b!"get" []) :
    ∃ d, Serial pwd c l d ∧ q.reply = o₀.repr d.cfg.prec := by
  obtain ⟨d, s, hd, hr⟩ := read_at h ha
  obtain ⟨rd, i, hi, hch⟩ := updates_chain hc hn (serial_updates hd ho)
  cases hch
  exact ⟨d, hd, hr _ (scalar_get rd hi hq)⟩

open Classical in
/-- C79: sets: `contains?` answers whether the last accepted message of any client about the element added it. -/
theorem C79_set [StdSort] {l₀ : List Obj} {o : Obj} (ht : t ≠ b!"Float") (hc : Reachable c) (hn : Holds c n (.set t l₀))
    (h : Serial pwd c (l ++ q :: l') c') (ha : Authenticated pwd l q.conn) (ho : UpdatesOf n l ops)
    (hq : Statement q.line n b!"contains?" [a]) (hd : Denotes t a o) : q.reply = truth (ElementAfter t l₀ ops o) := by
  obtain ⟨d, s, hs, hr⟩ := read_at h ha
  exact hr _ (C23_contains_after ht hc hn (serial_updates hs ho) hq hd)

/-- C79: dictionaries: `getValueForKey:` answers the value that was last associated with the key by any client, if the key was
not removed since. -/
theorem C79_dictionary [StdSort] {l₀ : List (Obj × Obj)} {k v : Obj} (ht : t ≠ b!"Float") (hc : Reachable c)
    (hn : Holds c n (.dictionary t u l₀)) (h : Serial pwd c (l ++ q :: l') c') (ha : Authenticated pwd l q.conn) (ho : UpdatesOf n l ops)
    (hq : Statement q.line n b!"getValueForKey:" [a]) (hd : Denotes t a k) (hv : ValueAfter t u l₀ ops k v) :
    ∃ d, Serial pwd c l d ∧ q.reply = v.repr d.cfg.prec := by
  obtain ⟨d, s, hs, hr⟩ := read_at h ha
  exact ⟨d, hs, hr _ (C24_value_after ht hc hn (serial_updates hs ho) hq hd hv)⟩

/-- C79: and `null` if there is none. -/
theorem C79_dictionary_none [StdSort] {l₀ : List (Obj × Obj)} {k : Obj} (ht : t ≠ b!"Float") (hc : Reachable c)
    (hn : Holds c n (.dictionary t u l₀)) (h : Serial pwd c (l ++ q :: l') c') (ha : Authenticated pwd l q.conn) (ho : UpdatesOf n l ops)
    (hq : Statement q.line n b!"getValueForKey:" [a]) (hd : Denotes t a k) (hv : ∀ v, ¬ ValueAfter t u l₀ ops k v) :
    q.reply = b!"null" := by
  obtain ⟨d, s, hs, hr⟩ := read_at h ha
  exact hr _ (C24_no_value_after ht hc hn (serial_updates hs ho) hq hd hv)

/-- Client 0 writes, client 1 reads. -/
example [StdSort] : ∃ c', Serial [] demo ([⟨0, b!"i add: 10;", b!"null"⟩, ⟨0, b!"i set: 20;", b!"null"⟩] ++ ⟨1, b!"i get;", b!"20"⟩ :: []) c' ∧
    Holds demo b!"i" (ofObj (.integer (-7))) ∧
    UpdatesOf b!"i" [⟨0, b!"i add: 10;", b!"null"⟩, ⟨0, b!"i set: 20;", b!"null"⟩] ([(b!"add:", [b!"10"], b!"null")] ++ [(b!"set:", [b!"20"], b!"null")]) := by
  have na : ¬ Question b!"add:" := by decide
  have ns : ¬ Question b!"set:" := by decide
  have acc : ∀ i l, (⟨i, l, b!"null"⟩ : Request).accepted := fun i l => (by decide : b!"null" ∉ errorTexts)
  exact ⟨{ demo with vars := updateVar b!"i" (.integer 20) demo.vars },
    serially_serial (ls := [(0, b!"i add: 10;"), (0, b!"i set: 20;"), (1, b!"i get;")]) .nil (by simp) (by kernel_rfl),
    by unfold Holds; kernel_rfl,
    .update (reads (by kernel_rfl)) na (acc _ _) (.update (reads (by kernel_rfl)) ns (acc _ _) .nil)⟩

end Knuckle.Props

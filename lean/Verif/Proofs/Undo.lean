/-
The pairs of `Undoes` are inverse to each other.
-/
import Verif.Proofs.Updates
import Verif.Spec.Undo

namespace Knuckle

open Spec

section
variable [StdSort] {pwd : Str} {c : Ctx} {s : Option Session} {text n name : Str} {args : List Str}

theorem answers_behaves (hc : Reachable c) {i : Inst} (hn : Holds c n i) (h : Statement text n name args) {x : Result Inst}
    (hb : Behaves c.cfg i name args x) (hs : name ≠ b!"sort") : Answers pwd c s text n x := by
  cases hb with
  | boolean hm => exact answers_bool hc hn h hm
  | character hm => exact answers_char hc hn h hm
  | integer hm => exact answers_int hc hn h hm
  | float hm => exact answers_flt hc hn h hm
  | string hm => exact answers_str hc hn h hm
  | vector hm => exact answers_vec hc hn h hm
  | sort => exact absurd rfl hs
  | sortUndefined => exact absurd rfl hs
  | set hm => exact answers_set hc hn h hm
  | dictionary hm => exact answers_dict hc hn h hm

end

/-- Ascending lists with the same elements are equal. -/
theorem ascending_ext {α : Type} {R : α → α → Prop} : ∀ {l l' : List α}, l.Pairwise R → l'.Pairwise R → (∀ x ∈ l, ¬ R x x) →
    (∀ x ∈ l, ∀ y ∈ l, R x y → ¬ R y x) → (∀ x, x ∈ l ↔ x ∈ l') → l = l' := by
  intro l
  induction l with
  | nil =>
    intro l' _ _ _ _ h
    cases l' with
    | nil => rfl
    | cons x _ => exact absurd ((h x).2 (by simp)) (by simp)
  | cons x l ih =>
    intro l' h1 h2 hi ha h
    cases l' with
    | nil => exact absurd ((h x).1 (by simp)) (by simp)
    | cons y l' =>
      rw [List.pairwise_cons] at h1 h2
      have e : x = y := by
        rcases List.mem_cons.1 ((h x).1 (by simp)) with e | hx
        · exact e
        rcases List.mem_cons.1 ((h y).2 (by simp)) with e | hy
        · exact e.symm
        exact absurd (h2.1 x hx) (ha x (by simp) y (by simp [hy]) (h1.1 y hy))
      subst e
      rw [ih h1.2 h2.2 (fun z hz => hi z (by simp [hz])) (fun z hz w hw => ha z (by simp [hz]) w (by simp [hw])) fun z => ?_]
      constructor
      · intro hz
        rcases List.mem_cons.1 ((h z).1 (by simp [hz])) with rfl | hz'
        · exact absurd (h1.1 z hz) (hi z (by simp))
        · exact hz'
      · intro hz
        rcases List.mem_cons.1 ((h z).2 (by simp [hz])) with rfl | hz'
        · exact absurd (h2.1 z hz) (hi z (by simp))
        · exact hz'

theorem set_ext {t : Str} (ht : t ≠ b!"Float") {l l' : List Obj} (h : WellTyped (.set t l)) (h' : WellTyped (.set t l')) (hm : ∀ x, x ∈ l ↔ x ∈ l') :
    l = l' :=
  ascending_ext (h.2.2 ht) (h'.2.2 ht) (fun x hx => by rw [(natLt_sto t ht).irr x (h.2.1 x hx)]; simp)
    (fun x hx y hy hxy hyx => by
      have := (natLt_sto t ht).tr x y x (h.2.1 x hx) (h.2.1 y hy) (h.2.1 x hx) hxy hyx
      rw [(natLt_sto t ht).irr x (h.2.1 x hx)] at this; cases this) hm

theorem dict_ext {t u : Str} (ht : t ≠ b!"Float") {l l' : List (Obj × Obj)} (h : WellTyped (.dictionary t u l)) (h' : WellTyped (.dictionary t u l'))
    (hm : ∀ k v, (k, v) ∈ l ↔ (k, v) ∈ l') : l = l' :=
  ascending_ext (R := fun a b => natLt a.1 b.1 = true) (h.2.2.2 ht) (h'.2.2.2 ht)
    (fun x hx => by rw [(natLt_sto t ht).irr x.1 (h.2.2.1 x hx).1]; simp)
    (fun x hx y hy hxy hyx => by
      have := (natLt_sto t ht).tr x.1 y.1 x.1 (h.2.2.1 x hx).1 (h.2.2.1 y hy).1 (h.2.2.1 x hx).1 hxy hyx
      rw [(natLt_sto t ht).irr x.1 (h.2.2.1 x hx).1] at this; cases this) fun x => hm x.1 x.2

open Classical in
theorem set_gives {cfg : Cfg} {t : Str} (ht : t ≠ b!"Float") {l : List Obj} (hw : WellTyped (.set t l)) {a : Str} {o : Obj} (ha : Denotes t a o) :
    (∃ l', Behaves cfg (.set t l) b!"add:" [a] (.gives (.set t l') b!"null") ∧ WellTyped (.set t l') ∧ ∀ x, x ∈ l' ↔ x = o ∨ x ∈ l) ∧
      ∃ l', Behaves cfg (.set t l) b!"remove:" [a] (.gives (.set t l') b!"null") ∧ WellTyped (.set t l') ∧ ∀ x, x ∈ l' ↔ x ∈ l ∧ x ≠ o := by
  have hs := searchable_nonfloat cfg.eps t ht l hw.2.1 (hw.2.2 ht) o (denotes_type ha)
  have k1 : ∀ {l'}, Behaves cfg (.set t l) b!"add:" [a] (.gives (.set t l') b!"null") → WellTyped (.set t l') ∧ ∀ x, x ∈ l' ↔ x = o ∨ x ∈ l := by
    intro l' hb
    refine ⟨behaves_wellTyped _ _ _ hw _ _ _ hb, fun x => ?_⟩
    obtain ⟨y, e, h⟩ := set_step ht hw hb (by decide)
    cases e
    have e1 : Adds t x (b!"add:", [a], b!"null") ↔ x = o :=
      ⟨fun ⟨a', _, h2, h3⟩ => by cases h2; exact denotes_unique h3 ha, fun e => ⟨a, rfl, rfl, e ▸ ha⟩⟩
    have e2 : ¬ Removes t x (b!"add:", [a], b!"null") := by
      rintro (h | ⟨_, h, _⟩)
      · exact absurd h (by simp)
      · exact absurd h (by simp)
    rw [h, e1]
    simp only [e2, not_false_eq_true, and_true]
  have k2 : ∀ {l'}, Behaves cfg (.set t l) b!"remove:" [a] (.gives (.set t l') b!"null") → WellTyped (.set t l') ∧ ∀ x, x ∈ l' ↔ x ∈ l ∧ x ≠ o := by
    intro l' hb
    refine ⟨behaves_wellTyped _ _ _ hw _ _ _ hb, fun x => ?_⟩
    obtain ⟨y, e, h⟩ := set_step ht hw hb (by decide)
    cases e
    have e1 : ¬ Adds t x (b!"remove:", [a], b!"null") := by rintro ⟨_, h, _⟩; exact absurd h (by simp)
    have e2 : Removes t x (b!"remove:", [a], b!"null") ↔ x = o := by
      constructor
      · rintro (h | ⟨a', _, h2, h3⟩)
        · exact absurd h (by simp)
        · cases h2; exact denotes_unique h3 ha
      · rintro rfl; exact .inr ⟨a, rfl, rfl, ha⟩
    rw [h, e2]
    simp only [e1, false_or, ne_eq]
  constructor
  · have hb := Behaves.set (cfg := cfg) (t := t) (l := l) (.add ha)
    simp only [setMeaning] at hb
    rw [if_pos hs] at hb
    split at hb
    · exact ⟨_, hb, k1 hb⟩
    · exact ⟨_, hb, k1 hb⟩
  · have hb := Behaves.set (cfg := cfg) (t := t) (l := l) (.remove ha)
    simp only [setMeaning] at hb
    rw [if_pos hs] at hb
    exact ⟨_, hb, k2 hb⟩

open Classical in
theorem dict_gives {cfg : Cfg} {t u : Str} (ht : t ≠ b!"Float") {l : List (Obj × Obj)} (hw : WellTyped (.dictionary t u l)) {a : Str} {k : Obj}
    (ha : Denotes t a k) :
    (∀ {b v}, Denotes u b v → ∃ l', Behaves cfg (.dictionary t u l) b!"associateValue:withKey:" [b, a] (.gives (.dictionary t u l') b!"null") ∧
        WellTyped (.dictionary t u l') ∧ ∀ k' v', (k', v') ∈ l' ↔ (k' = k ∧ v' = v) ∨ ((k', v') ∈ l ∧ k' ≠ k)) ∧
      ∃ l', Behaves cfg (.dictionary t u l) b!"removeKey:" [a] (.gives (.dictionary t u l') b!"null") ∧
        WellTyped (.dictionary t u l') ∧ ∀ k' v', (k', v') ∈ l' ↔ (k', v') ∈ l ∧ k' ≠ k := by
  have hs := dict_searchable ht cfg.eps hw (denotes_type ha)
  constructor
  · intro b v hv
    have k1 : ∀ {l'}, Behaves cfg (.dictionary t u l) b!"associateValue:withKey:" [b, a] (.gives (.dictionary t u l') b!"null") →
        WellTyped (.dictionary t u l') ∧ ∀ k' v', (k', v') ∈ l' ↔ (k' = k ∧ v' = v) ∨ ((k', v') ∈ l ∧ k' ≠ k) := by
      intro l' hb
      refine ⟨behaves_wellTyped _ _ _ hw _ _ _ hb, fun k' v' => ?_⟩
      obtain ⟨y, e, h⟩ := dict_step ht hw hb (by decide)
      cases e
      have e1 : ∀ v', Associates t u k' v' (b!"associateValue:withKey:", [b, a], b!"null") ↔ k' = k ∧ v' = v := fun v' =>
        ⟨fun ⟨a', b', _, h2, h3, h4⟩ => by cases h2; exact ⟨denotes_unique h4 ha, denotes_unique h3 hv⟩,
          fun ⟨h1, h2⟩ => ⟨b, a, rfl, rfl, h2 ▸ hv, h1 ▸ ha⟩⟩
      have e2 : Rewrites t u k' (b!"associateValue:withKey:", [b, a], b!"null") ↔ k' = k := by
        constructor
        · rintro (⟨v, h⟩ | (h | ⟨_, h, _⟩))
          · exact ((e1 v).1 h).1
          · exact absurd h (by simp)
          · exact absurd h (by simp)
        · intro h; exact .inl ⟨v, (e1 v).2 ⟨h, rfl⟩⟩
      rw [h, e1, e2]
    have hb := Behaves.dictionary (cfg := cfg) (t := t) (u := u) (l := l) (.associate hv ha)
    simp only [dictMeaning] at hb
    rw [if_pos hs] at hb
    split at hb
    · exact ⟨_, hb, k1 hb⟩
    · exact ⟨_, hb, k1 hb⟩
  · have hb := Behaves.dictionary (cfg := cfg) (t := t) (u := u) (l := l) (.removeKey ha)
    simp only [dictMeaning] at hb
    rw [if_pos hs] at hb
    refine ⟨_, hb, behaves_wellTyped _ _ _ hw _ _ _ hb, fun k' v' => ?_⟩
    rw [List.mem_filter]
    refine and_congr_right fun hm => ?_
    rw [Bool.not_eq_true', ← Bool.not_eq_true, tied_nonfloat cfg.eps t ht (denotes_type ha) (hw.2.2.1 _ hm).1]
    exact ne_comm

theorem not_sort_of_undoes {i : Inst} {m m' : Str} {a a' : List Str} (h : Undoes i m a m' a') : m ≠ b!"sort" ∧ m' ≠ b!"sort" := by
  cases h <;> decide

theorem insertIdx_here (l l' : List Obj) (o : Obj) : (l ++ l').insertIdx l.length o = l ++ o :: l' := by
  induction l with
  | nil => rfl
  | cons x l ih => exact congrArg (x :: ·) ih

theorem undo_behaves {i : Inst} {m m' : Str} {a a' : List Str} (hw : WellTyped i) (h : Undoes i m a m' a') (cfg : Cfg) :
    ∃ j r, Behaves cfg i m a (.gives j r) ∧ ∀ cfg', ∃ r', Behaves cfg' j m' a' (.gives i r') := by
  cases h with
  | boolean h1 h2 => exact ⟨_, _, .boolean (.set h1), fun _ => ⟨_, .boolean (.set h2)⟩⟩
  | character h1 h2 =>
    cases h1; cases h2
    exact ⟨_, _, .character .set, fun _ => ⟨_, .character .set⟩⟩
  | integer h1 h2 => exact ⟨_, _, .integer (.set h1), fun _ => ⟨_, .integer (.set h2)⟩⟩
  | string h1 h2 =>
    cases h1 with | string h1 => cases h2 with | string h2 => exact ⟨_, _, .string (.set h1), fun _ => ⟨_, .string (.set h2)⟩⟩
  | @add v k a h1 h2 h3 =>
    have b1 := Behaves.integer (cfg := cfg) (v := v) (.add (.int h1 h2))
    simp only [intMeaning, exactly, if_pos h3] at b1
    refine ⟨_, _, b1, fun cfg' => ⟨b!"null", ?_⟩⟩
    have b2 := Behaves.integer (cfg := cfg') (v := v + k) (.subtract (.int h1 h2))
    have e : v + k - k = v := by omega
    simp only [intMeaning, exactly, e] at b2
    rw [if_pos (show IsInt32 v from hw)] at b2
    exact b2
  | @subtract v k a h1 h2 h3 =>
    have b1 := Behaves.integer (cfg := cfg) (v := v) (.subtract (.int h1 h2))
    simp only [intMeaning, exactly, if_pos h3] at b1
    refine ⟨_, _, b1, fun cfg' => ⟨b!"null", ?_⟩⟩
    have b2 := Behaves.integer (cfg := cfg') (v := v - k) (.add (.int h1 h2))
    have e : v - k + k = v := by omega
    simp only [intMeaning, exactly, e] at b2
    rw [if_pos (show IsInt32 v from hw)] at b2
    exact b2
  | @strPushBack v x =>
    refine ⟨_, _, .string .pushBack, fun cfg' => ⟨charStr x, ?_⟩⟩
    have b2 := Behaves.string (cfg := cfg') (v := v ++ [x]) .popBack
    simp only [strMeaning, List.getLast?_concat, List.dropLast_concat] at b2
    exact b2
  | @strPushFront v x => exact ⟨_, _, .string .pushFront, fun cfg' => ⟨charStr x, .string .popFront⟩⟩
  | @strPopBack v x =>
    have b1 := Behaves.string (cfg := cfg) (v := v ++ [x]) .popBack
    simp only [strMeaning, List.getLast?_concat, List.dropLast_concat] at b1
    exact ⟨_, _, b1, fun cfg' => ⟨_, .string .pushBack⟩⟩
  | @strPopFront v x => exact ⟨_, _, .string .popFront, fun cfg' => ⟨_, .string .pushFront⟩⟩
  | @concatenate v w a b h1 h2 =>
    cases h1 with
    | string h1 =>
      refine ⟨_, _, .string (.concatenate h1), fun cfg' => ⟨b!"null", ?_⟩⟩
      have b2 := Behaves.string (cfg := cfg') (v := v ++ w) (.erase h2)
      simp only [strMeaning] at b2
      rw [if_pos (by simp), Int.toNat_natCast, List.take_left] at b2
      exact b2
  | @strErase v w a b h1 h2 =>
    cases h2 with
    | string h2 =>
      have b1 := Behaves.string (cfg := cfg) (v := v ++ w) (.erase h1)
      simp only [strMeaning] at b1
      rw [if_pos (by simp)] at b1
      simp only [Int.toNat_natCast, List.take_left'] at b1
      exact ⟨_, _, b1, fun cfg' => ⟨_, .string (.concatenate h2)⟩⟩
  | @strInsert v v' w a b e h1 h2 h3 =>
    cases h1 with
    | string h1 =>
      have b1 := Behaves.string (cfg := cfg) (v := v ++ v') (.insert h1 h2)
      simp only [strMeaning] at b1
      rw [if_pos (by simp)] at b1
      simp only [Int.toNat_natCast, List.take_left', List.drop_left'] at b1
      refine ⟨_, _, b1, fun cfg' => ⟨b!"null", ?_⟩⟩
      have b2 := Behaves.string (cfg := cfg') (v := v ++ w ++ v') (.eraseTo h2 h3)
      simp only [strMeaning] at b2
      rw [if_pos (by simp)] at b2
      have e1 : (v ++ w ++ v').take v.length = v := by rw [List.append_assoc, List.take_left]
      rw [Int.toNat_natCast, Int.toNat_natCast, List.drop_left, e1] at b2
      exact b2
  | @strEraseTo v v' w a b e h1 h2 h3 =>
    cases h1 with
    | string h1 =>
      have b1 := Behaves.string (cfg := cfg) (v := v ++ w ++ v') (.eraseTo h2 h3)
      simp only [strMeaning] at b1
      rw [if_pos (by simp), Int.toNat_natCast, Int.toNat_natCast, List.drop_left] at b1
      have e1 : (v ++ w ++ v').take v.length = v := by rw [List.append_assoc, List.take_left]
      rw [e1] at b1
      refine ⟨_, _, b1, fun cfg' => ⟨b!"null", ?_⟩⟩
      have b2 := Behaves.string (cfg := cfg') (v := v ++ v') (.insert h1 h2)
      simp only [strMeaning] at b2
      rw [if_pos (by simp), Int.toNat_natCast, List.take_left, List.drop_left] at b2
      exact b2
  | @pushBack t l a o h1 =>
    refine ⟨_, _, .vector (.pushBack h1), fun cfg' => ⟨o.repr cfg'.prec, ?_⟩⟩
    have b2 := Behaves.vector (cfg := cfg') (t := t) (l := l ++ [o]) .popBack
    simp only [vecMeaning, List.getLast?_concat, List.dropLast_concat] at b2
    exact b2
  | pushFront h1 => exact ⟨_, _, .vector (.pushFront h1), fun cfg' => ⟨_, .vector .popFront⟩⟩
  | @popBack t l a o h1 =>
    have b1 := Behaves.vector (cfg := cfg) (t := t) (l := l ++ [o]) .popBack
    simp only [vecMeaning, List.getLast?_concat, List.dropLast_concat] at b1
    exact ⟨_, _, b1, fun cfg' => ⟨_, .vector (.pushBack h1)⟩⟩
  | popFront h1 => exact ⟨_, _, .vector .popFront, fun cfg' => ⟨_, .vector (.pushFront h1)⟩⟩
  | @insert t l l' a o b h1 h2 =>
    have b1 := Behaves.vector (cfg := cfg) (t := t) (l := l ++ l') (.insert h1 h2)
    simp only [vecMeaning] at b1
    rw [if_pos (by simp), Int.toNat_natCast] at b1
    refine ⟨_, _, b1, fun cfg' => ?_⟩
    have b2 := Behaves.vector (cfg := cfg') (t := t) (l := (l ++ l').insertIdx l.length o) (.popAtIndex h2)
    simp only [vecMeaning] at b2
    have hl : ((l ++ l').insertIdx l.length o).length = l.length + l'.length + 1 := by
      rw [List.length_insertIdx_of_le_length (by simp)]; simp
    rw [dif_pos (by omega)] at b2
    simp only [Int.toNat_natCast, List.eraseIdx_insertIdx_self] at b2
    exact ⟨_, b2⟩
  | @popAtIndex t l l' a o b h1 h2 =>
    have b1 := Behaves.vector (cfg := cfg) (t := t) (l := l ++ o :: l') (.popAtIndex h2)
    simp only [vecMeaning] at b1
    rw [dif_pos (by simp)] at b1
    simp only [Int.toNat_natCast] at b1
    have e1 : (l ++ o :: l').eraseIdx l.length = l ++ l' := by
      rw [List.eraseIdx_append_of_length_le (by simp)]; simp
    rw [e1] at b1
    refine ⟨_, _, b1, fun cfg' => ⟨b!"null", ?_⟩⟩
    have b2 := Behaves.vector (cfg := cfg') (t := t) (l := l ++ l') (.insert h1 h2)
    simp only [vecMeaning] at b2
    rw [if_pos (by simp), Int.toNat_natCast] at b2
    have e2 : (l ++ l').insertIdx l.length o = l ++ o :: l' := insertIdx_here l l' o
    rw [e2] at b2
    exact b2
  | @reverse t l =>
    refine ⟨_, _, .vector .reverse, fun cfg' => ⟨b!"null", ?_⟩⟩
    have b2 := Behaves.vector (cfg := cfg') (t := t) (l := l.reverse) .reverse
    simp only [vecMeaning, List.reverse_reverse] at b2
    exact b2
  | @addToSet t l a o ht h1 h2 =>
    obtain ⟨l1, b1, w1, g1⟩ := (set_gives (cfg := cfg) ht hw h1).1
    refine ⟨_, _, b1, fun cfg' => ⟨b!"null", ?_⟩⟩
    obtain ⟨l2, b2, w2, g2⟩ := (set_gives (cfg := cfg') ht w1 h1).2
    have : l2 = l := set_ext ht w2 hw fun x => by
      rw [g2, g1]
      exact ⟨fun ⟨h3, h4⟩ => h3.resolve_left h4, fun h3 => ⟨.inr h3, fun e => h2 (e ▸ h3)⟩⟩
    rw [this] at b2; exact b2
  | @remove t l a o ht h1 h2 =>
    obtain ⟨l1, b1, w1, g1⟩ := (set_gives (cfg := cfg) ht hw h1).2
    refine ⟨_, _, b1, fun cfg' => ⟨b!"null", ?_⟩⟩
    obtain ⟨l2, b2, w2, g2⟩ := (set_gives (cfg := cfg') ht w1 h1).1
    have : l2 = l := set_ext ht w2 hw fun x => by
      rw [g2, g1]
      refine ⟨fun h3 => h3.elim (fun e => e ▸ h2) (·.1), fun h3 => ?_⟩
      by_cases e : x = o
      · exact .inl e
      · exact .inr ⟨h3, e⟩
    rw [this] at b2; exact b2
  | @associate t u l a b k v ht h1 h2 h3 =>
    obtain ⟨l1, b1, w1, g1⟩ := (dict_gives (cfg := cfg) ht hw h1).1 h2
    refine ⟨_, _, b1, fun cfg' => ⟨b!"null", ?_⟩⟩
    obtain ⟨l2, b2, w2, g2⟩ := (dict_gives (cfg := cfg') ht w1 h1).2
    have : l2 = l := dict_ext ht w2 hw fun k' v' => by
      rw [g2, g1]
      refine ⟨fun ⟨h4, h5⟩ => (h4.resolve_left fun h6 => h5 h6.1).1, fun h4 => ?_⟩
      have hne : k' ≠ k := fun e => h3 v' (e ▸ h4)
      exact ⟨.inr ⟨h4, hne⟩, hne⟩
    rw [this] at b2; exact b2
  | @reassociate t u l a b b' k v v' ht h1 h2 h2' h3 =>
    obtain ⟨l1, b1, w1, g1⟩ := (dict_gives (cfg := cfg) ht hw h1).1 h2
    refine ⟨_, _, b1, fun cfg' => ⟨b!"null", ?_⟩⟩
    obtain ⟨l2, b2, w2, g2⟩ := (dict_gives (cfg := cfg') ht w1 h1).1 h2'
    have : l2 = l := dict_ext ht w2 hw fun k' w => by
      rw [g2, g1]
      constructor
      · rintro (⟨rfl, rfl⟩ | ⟨⟨h4, _⟩ | ⟨h4, _⟩, h5⟩)
        · exact h3
        · exact absurd h4 h5
        · exact h4
      · intro h4
        by_cases e : k' = k
        · subst e; exact .inl ⟨rfl, dict_functional ht hw h4 h3⟩
        · exact .inr ⟨.inr ⟨h4, e⟩, e⟩
    rw [this] at b2; exact b2
  | @removeKey t u l a b k v ht h1 h2 h3 =>
    obtain ⟨l1, b1, w1, g1⟩ := (dict_gives (cfg := cfg) ht hw h1).2
    refine ⟨_, _, b1, fun cfg' => ⟨b!"null", ?_⟩⟩
    obtain ⟨l2, b2, w2, g2⟩ := (dict_gives (cfg := cfg') ht w1 h1).1 h2
    have : l2 = l := dict_ext ht w2 hw fun k' w => by
      rw [g2, g1]
      constructor
      · rintro (⟨rfl, rfl⟩ | ⟨⟨h4, _⟩, _⟩)
        · exact h3
        · exact h4
      · intro h4
        by_cases e : k' = k
        · subst e; exact .inl ⟨rfl, dict_functional ht hw h4 h3⟩
        · exact .inr ⟨⟨h4, e⟩, e⟩
    rw [this] at b2; exact b2

end Knuckle

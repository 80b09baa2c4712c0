/-
C97: the answers to the different questions about one variable agree with each other.
-/
import Verif.Spec.Agree
import Verif.Props.Containers
import Verif.Props.Strings

namespace Knuckle.Props

open Spec

variable {c : Ctx} {n t u : Str}

/-! ### Positions -/

/-- The positions, counted from `k`, of the elements with a property. -/
def positionsFrom {α : Type} (p : α → Bool) : Nat → List α → List Nat
  | _, [] => []
  | k, x :: l => if p x then k :: positionsFrom p (k + 1) l else positionsFrom p (k + 1) l

section
variable {α : Type} (p : α → Bool)

theorem positions_zipIdx : ∀ (l : List α) (k : Nat), ((l.zipIdx k).filter fun x => p x.1).map (·.2) = positionsFrom p k l
  | [], _ => rfl
  | x :: l, k => by
    rw [List.zipIdx_cons, List.filter_cons, positionsFrom]
    split <;> simp [positions_zipIdx l (k + 1)]

theorem positions_length : ∀ (l : List α) (k : Nat), (positionsFrom p k l).length = l.countP p
  | [], _ => rfl
  | x :: l, k => by
    rw [positionsFrom, List.countP_cons]
    split <;> simp_all [positions_length l (k + 1)]

theorem positions_mem : ∀ (l : List α) (k i : Nat), i ∈ positionsFrom p k l ↔ k ≤ i ∧ ∃ x, l[i - k]? = some x ∧ p x = true
  | [], _, _ => by simp [positionsFrom]
  | x :: l, k, i => by
    have ih := positions_mem l (k + 1) i
    rw [positionsFrom]
    rcases Nat.lt_trichotomy i k with h | h | h
    · split
      · rw [List.mem_cons, ih]; constructor
        · rintro (h1 | ⟨h1, _⟩) <;> omega
        · rintro ⟨h1, _⟩; omega
      · rw [ih]; constructor
        · rintro ⟨h1, _⟩; omega
        · rintro ⟨h1, _⟩; omega
    · subst h
      split
      · rename_i hp; simp [hp]
      · rename_i hp
        rw [ih]; constructor
        · rintro ⟨h1, _⟩; omega
        · rintro ⟨_, y, hy, h2⟩; simp at hy; subst hy; exact absurd h2 hp
    · have e : i - k = (i - (k + 1)) + 1 := by omega
      have e2 : (i ∈ (if p x = true then k :: positionsFrom p (k + 1) l else positionsFrom p (k + 1) l)) ↔ i ∈ positionsFrom p (k + 1) l := by
        split
        · rw [List.mem_cons]; constructor
          · rintro (h1 | h1); omega; exact h1
          · exact Or.inr
        · rfl
      rw [e2, ih, e, List.getElem?_cons_succ]
      constructor
      · rintro ⟨_, h1⟩; exact ⟨by omega, h1⟩
      · rintro ⟨_, h1⟩; exact ⟨by omega, h1⟩

theorem positions_ascending : ∀ (l : List α) (k : Nat), (positionsFrom p k l).Pairwise (· < ·)
  | [], _ => List.Pairwise.nil
  | x :: l, k => by
    rw [positionsFrom]
    split
    · refine List.pairwise_cons.2 ⟨fun i hi => ?_, positions_ascending l (k + 1)⟩
      have := ((positions_mem p l (k + 1) i).1 hi).1
      omega
    · exact positions_ascending l (k + 1)

theorem positions_first : ∀ (l : List α) (k : Nat), indexText ((l.findIdx? p).map (· + k)) = firstOf (positionsFrom p k l)
  | [], _ => rfl
  | x :: l, k => by
    rw [List.findIdx?_cons, positionsFrom]
    split
    · simp [indexText, firstOf]
    · rw [← positions_first l (k + 1)]
      cases l.findIdx? p with
      | none => rfl
      | some i => simp only [Option.map_some]; congr 2; omega

theorem positions_drop : ∀ (l : List α) (k i : Nat), (positionsFrom p k l).filter (k + i ≤ ·) = positionsFrom p (k + i) (l.drop i)
  | [], _, _ => by simp [positionsFrom]
  | x :: l, k, 0 => by
    rw [List.filter_eq_self.2]
    · rfl
    · intro j hj
      have := ((positions_mem p (x :: l) k j).1 hj).1
      simpa using this
  | x :: l, k, i + 1 => by
    have h := positions_drop l (k + 1) i
    have e : k + (i + 1) = k + 1 + i := by omega
    rw [List.drop_succ_cons, e, ← h, positionsFrom]
    split
    · rw [List.filter_cons_of_neg]; simp; omega
    · rfl

theorem positions_nonempty (l : List α) (k : Nat) : positionsFrom p k l ≠ [] ↔ ∃ x ∈ l, p x = true := by
  rw [← List.length_pos_iff, positions_length, List.countP_pos_iff]

end

theorem truth_congr {p q : Prop} [Decidable p] [Decidable q] (h : p ↔ q) : truth p = truth q := by
  unfold truth; by_cases hp : p
  · rw [if_pos hp, if_pos (h.1 hp)]
  · rw [if_neg hp, if_neg (fun hq => hp (h.2 hq))]

theorem repr_inj (ht : t ≠ b!"Float") (p : Int) {o o' : Obj} (h : HasType t o) (h' : HasType t o') (e : o.repr p = o'.repr p) : o = o' := by
  have h1 := listText_inj (separable_repr ht p) (a := c!"[") (z := c!"]") (by decide) [o] [o'] (by simpa using h) (by simpa using h')
    (by simp only [List.map_cons, List.map_nil, e])
  simpa using h1

theorem nodup_map {α β : Type} {f : α → β} : ∀ {l : List α}, (∀ x ∈ l, ∀ y ∈ l, f x = f y → x = y) → l.Nodup → (l.map f).Nodup
  | [], _, _ => List.nodup_nil
  | x :: l, h, hl => by
    rw [List.nodup_cons] at hl
    rw [List.map_cons, List.nodup_cons]
    refine ⟨fun hx => ?_, nodup_map (fun y hy z hz => h y (List.mem_cons_of_mem _ hy) z (List.mem_cons_of_mem _ hz)) hl.2⟩
    obtain ⟨y, hy, e⟩ := List.mem_map.1 hx
    exact hl.1 (by rw [← h y (List.mem_cons_of_mem _ hy) x (List.mem_cons_self ..) e]; exact hy)

theorem asked_vec [StdSort] {l : List Obj} {name r : Str} {args : List Str} {m : VecMsg} (hc : Reachable c) (hn : Holds c n (.vector t l))
    (hm : VecSays t name args m) (e : vecMeaning c.cfg l m = .gives l r) : Asked c n name args r := by
  intro pwd s text h
  have h1 := answers_vec (pwd := pwd) (s := s) hc hn h hm
  rw [e] at h1
  exact justReplies_of hc hn h1

/-- C97: what the questions about elements and positions of a vector answer comes from one list of texts, and what the searches answer comes,
for each literal searched for, from one ascending list of positions in it; unless it is a vector of floats, these are the positions of the
text of the value searched for. -/
theorem C97_vectors [StdSort] {l : List Obj} (hc : Reachable c) (hn : Holds c n (.vector t l)) :
    ∃ xs, VectorReads c n xs ∧ ∀ a o, Denotes t a o → ∃ ids, VectorFinds c n a xs.length ids ∧
      (t ≠ b!"Float" → ∀ i, i ∈ ids ↔ xs[i]? = some (o.repr c.cfg.prec)) := by
  refine ⟨l.map (Obj.repr c.cfg.prec), ?_, fun a o ha => ⟨positionsFrom (same c.cfg.eps · o) 0 l, ?_, ?_⟩⟩
  · constructor
    · exact asked_vec hc hn .get rfl
    · rw [List.length_map]; exact asked_vec hc hn .size rfl
    · rw [List.length_map, truth_congr List.length_eq_zero_iff]; exact asked_vec hc hn .isEmpty rfl
    · intro a i ha h
      rw [List.length_map] at h
      refine asked_vec hc hn (.atIndex ha) ?_
      simp only [vecMeaning]
      rw [dif_pos ⟨by omega, by omega⟩]
      simp
    · intro a i ha h pwd s text hs
      rw [List.length_map] at h
      have h1 := answers_vec (pwd := pwd) (s := s) hc hn hs (.atIndex ha)
      simp only [vecMeaning] at h1
      rwa [dif_neg (by omega)] at h1
    · intro a k ha
      refine asked_vec hc hn (.first ha) ?_
      simp only [vecMeaning]
      rw [if_pos (by omega)]
      simp [vectorText]
    · intro a k ha
      refine asked_vec hc hn (.last ha) ?_
      simp only [vecMeaning]
      rw [if_pos (by omega)]
      simp [vectorText]
    · intro a i ha h
      rw [List.length_map] at h
      refine asked_vec hc hn (.slice ha) ?_
      simp only [vecMeaning]
      rw [if_pos (by omega)]
      simp [vectorText]
    · intro a b i j ha hb h h'
      rw [List.length_map] at h'
      refine asked_vec hc hn (.sliceTo ha hb) ?_
      simp only [vecMeaning]
      rw [if_pos (by omega)]
      simp [vectorText]
  · rw [List.length_map]
    constructor
    · exact positions_ascending _ _ _
    · intro i hi
      obtain ⟨_, x, hx, _⟩ := (positions_mem _ l 0 i).1 hi
      exact (List.getElem?_eq_some_iff.1 hx).1
    · refine asked_vec hc hn (.allIndexesOf ha) ?_
      simp only [vecMeaning]
      rw [← positions_zipIdx, List.map_map]; rfl
    · refine asked_vec hc hn (.contains ha) ?_
      simp only [vecMeaning]
      rw [truth_congr (positions_nonempty _ l 0)]
    · rw [positions_length]; exact asked_vec hc hn (.count ha) rfl
    · rw [← positions_first]
      refine asked_vec hc hn (.firstIndexOf ha) ?_
      simp [vecMeaning]
    · intro b i hb h
      refine asked_vec hc hn (.containsFrom ha hb) ?_
      simp only [vecMeaning]
      have e := positions_drop (same c.cfg.eps · o) l 0 i
      rw [Nat.zero_add] at e
      rw [if_pos (by omega), e]
      rw [truth_congr (positions_nonempty _ _ i)]; rfl
    · intro b i hb h
      refine asked_vec hc hn (.firstIndexOfFrom ha hb) ?_
      simp only [vecMeaning]
      have e := positions_drop (same c.cfg.eps · o) l 0 i
      rw [Nat.zero_add] at e
      rw [if_pos (by omega), e, ← positions_first]; rfl
  · intro ht i
    rw [positions_mem, List.getElem?_map]
    have hw := (holds_wellTyped hc hn).2
    constructor
    · rintro ⟨_, x, hx, h1⟩
      rw [Nat.sub_zero] at hx
      rw [hx, (C20_same_elements ht c.cfg.eps (hw x (List.mem_of_getElem? hx)) (denotes_type ha)).1 h1]; rfl
    · intro h
      obtain ⟨x, hx, h1⟩ := Option.map_eq_some_iff.1 h
      refine ⟨Nat.zero_le _, x, hx, ?_⟩
      have hx' := hw x (List.mem_of_getElem? hx)
      refine (C20_same_elements ht c.cfg.eps hx' (denotes_type ha)).2 ?_
      exact repr_inj ht c.cfg.prec hx' (denotes_type ha) h1

/-! ### Changes -/

theorem after_vec [StdSort] {pwd : Str} {s : Option Session} {text name r : Str} {args : List Str} {l l' : List Obj} {m : VecMsg}
    (hc : Reachable c) (hn : Holds c n (.vector t l)) (h : Statement text n name args) (hm : VecSays t name args m)
    (e : vecMeaning c.cfg l m = .gives l' r) :
    ∃ c', Replies pwd c s text r c' ∧ Reachable c' ∧ c'.cfg = c.cfg ∧ Holds c' n (.vector t l') := by
  have h1 := answers_vec (pwd := pwd) (s := s) hc hn h hm
  rw [e] at h1
  obtain ⟨c', h2, h3, _, h4⟩ := h1
  exact ⟨c', h2, .step hc h2, h3, by have := h4 n; rw [if_pos rfl] at this; exact this⟩

/-- C97: `removeAll:` makes a vector smaller by as many elements as `count:` reported, and none is found afterwards. -/
theorem C97_removeAll [StdSort] {pwd : Str} {s : Option Session} {text a : Str} {o : Obj} {l : List Obj} (hc : Reachable c)
    (hn : Holds c n (.vector t l)) (ha : Denotes t a o) (h : Statement text n b!"removeAll:" [a]) :
    ∃ size count c', Asked c n b!"size" [] (intStr size) ∧ Asked c n b!"count:" [a] (intStr count) ∧ Replies pwd c s text b!"null" c' ∧
      Asked c' n b!"size" [] (intStr (size - count)) ∧ Asked c' n b!"contains?" [a] b!"false" := by
  obtain ⟨c', h1, h2, h3, h4⟩ := after_vec (pwd := pwd) (s := s) hc hn h (.removeAll ha) rfl
  refine ⟨l.length, l.countP (same c.cfg.eps · o), c', asked_vec hc hn .size rfl, asked_vec hc hn (.count ha) rfl, h1, ?_, ?_⟩
  · have e : ((l.length : Int) - (l.countP (same c.cfg.eps · o) : Int)) = ((l.filter fun x => !same c.cfg.eps x o).length : Int) := by
      have := List.length_eq_countP_add_countP (same c.cfg.eps · o) (l := l)
      rw [← List.countP_eq_length_filter]
      simp only [decide_not, Bool.decide_eq_true] at this
      omega
    rw [e]; exact asked_vec h2 h4 .size rfl
  · refine asked_vec h2 h4 (.contains ha) ?_
    simp only [vecMeaning, h3]
    rw [truth, if_neg]
    rintro ⟨x, hx, e⟩
    rw [List.mem_filter, e] at hx
    exact absurd hx.2 (by decide)

/-- C97: `replaceAll:with:` does not change the size; unless it is a vector of floats, and if the values are different, none of the old value is
found afterwards, and the new value as often as both together before. -/
theorem C97_replaceAll [StdSort] {pwd : Str} {s : Option Session} {text a b : Str} {o r : Obj} {l : List Obj} (hc : Reachable c)
    (hn : Holds c n (.vector t l)) (ha : Denotes t a o) (hb : Denotes t b r) (h : Statement text n b!"replaceAll:with:" [a, b]) :
    ∃ (size old new : Int) (c' : Ctx), Asked c n b!"size" [] (intStr size) ∧ Asked c n b!"count:" [a] (intStr old) ∧
      Asked c n b!"count:" [b] (intStr new) ∧ Replies pwd c s text b!"null" c' ∧ Asked c' n b!"size" [] (intStr size) ∧
      (t ≠ b!"Float" → o ≠ r →
        Asked c' n b!"contains?" [a] b!"false" ∧ Asked c' n b!"count:" [b] (intStr (old + new))) := by
  obtain ⟨c', h1, h2, h3, h4⟩ := after_vec (pwd := pwd) (s := s) hc hn h (.replaceAll ha hb) rfl
  refine ⟨l.length, l.countP (same c.cfg.eps · o), l.countP (same c.cfg.eps · r), c', asked_vec hc hn .size rfl,
    asked_vec hc hn (.count ha) rfl, asked_vec hc hn (.count hb) rfl, h1, ?_, fun ht hor => ⟨?_, ?_⟩⟩
  · have := asked_vec h2 h4 (.size) rfl
    rwa [List.length_map] at this
  · refine asked_vec h2 h4 (.contains ha) ?_
    simp only [vecMeaning, h3]
    rw [truth, if_neg]
    rintro ⟨x, hx, e⟩
    obtain ⟨y, hy, rfl⟩ := List.mem_map.1 hx
    split at e
    · exact hor ((C20_same_elements ht c.cfg.eps (denotes_type hb) (denotes_type ha)).1 e).symm
    · rename_i e'; exact e' e
  · have h5 := asked_vec h2 h4 (.count hb) rfl
    rw [h3] at h5
    convert h5 using 2
    have hw := (holds_wellTyped hc hn).2
    clear h hn h1 h4 h5
    rw [← Int.natCast_add]
    congr 1
    induction l with
    | nil => rfl
    | cons x l ih =>
      have ih := ih (fun y hy => hw y (List.mem_cons_of_mem _ hy))
      have hx := hw x (List.mem_cons_self ..)
      have k1 := C20_same_elements ht c.cfg.eps hx (denotes_type ha)
      have k2 := C20_same_elements ht c.cfg.eps hx (denotes_type hb)
      have k3 := (C20_same_elements ht c.cfg.eps (denotes_type hb) (denotes_type hb)).2 rfl
      rw [List.map_cons, List.countP_cons, List.countP_cons, List.countP_cons]
      by_cases e1 : same c.cfg.eps x o = true
      · have e2 : ¬ same c.cfg.eps x r = true := fun e2 => hor ((k1.1 e1).symm.trans (k2.1 e2))
        rw [if_pos e1, if_pos e1, if_neg e2, if_pos k3]; omega
      · rw [if_neg e1, if_neg e1]; omega

/-! ### Sets -/

/-- C97: what the questions about a set answer comes from one list of texts; unless it is a set of floats, each text occurs in it once, and
`contains?` says whether the text of the value is among them. -/
theorem C97_sets [StdSort] {l : List Obj} (hc : Reachable c) (hn : Holds c n (.set t l)) :
    ∃ xs, SetReads c n xs ∧ (t ≠ b!"Float" → xs.Nodup ∧
      ∀ a o, Denotes t a o → Asked c n b!"contains?" [a] (truth (o.repr c.cfg.prec ∈ xs))) := by
  have hw := (holds_wellTyped hc hn).2.1
  refine ⟨l.map (Obj.repr c.cfg.prec), ?_, fun ht => ⟨?_, fun a o ha pwd s text h => ?_⟩⟩
  · constructor
    · intro pwd s text h; exact (C23_reads hc hn).1 h
    · intro pwd s text h; rw [List.length_map]; exact (C23_reads hc hn).2.1 h
    · intro pwd s text h; rw [List.length_map, truth_congr List.length_eq_zero_iff]; exact (C23_reads hc hn).2.2 h
  · refine nodup_map (fun x hx y hy e => repr_inj ht _ (hw x hx) (hw y hy) e) (C23_elements_ascending ht hc hn).2
  · have h1 := C23_contains (pwd := pwd) (s := s) ht hc hn h ha
    convert h1 using 1
    refine truth_congr ⟨fun h2 => ?_, fun h2 => List.mem_map.2 ⟨o, h2, rfl⟩⟩
    obtain ⟨x, hx, e⟩ := List.mem_map.1 h2
    rwa [← repr_inj ht _ (hw x hx) (denotes_type ha) e]

/-! ### Dictionaries -/

/-- C97: what the questions about a dictionary answer comes from one list of pairs of texts; unless the keys are floats, each key occurs in it
once, `containsKey?` says whether the text of the key is among the keys, and `getValueForKey:` returns the text next to it, or `null`, which is
not the text of a value. -/
theorem C97_dictionaries [StdSort] {l : List (Obj × Obj)} (hc : Reachable c) (hn : Holds c n (.dictionary t u l)) :
    ∃ xs, DictionaryReads c n xs ∧ (∀ x ∈ xs, x.2 ≠ b!"null") ∧ (t ≠ b!"Float" → (xs.map (·.1)).Nodup ∧
      ∀ a o, Denotes t a o → Asked c n b!"containsKey?" [a] (truth (o.repr c.cfg.prec ∈ xs.map (·.1))) ∧
        Asked c n b!"getValueForKey:" [a] ((xs.lookup (o.repr c.cfg.prec)).getD b!"null")) := by
  have hw := (holds_wellTyped hc hn).2.2.1
  refine ⟨l.map fun x => (x.1.repr c.cfg.prec, x.2.repr c.cfg.prec), ?_, ?_, fun ht => ⟨?_, fun a o ha => ⟨?_, ?_⟩⟩⟩
  · constructor
    · intro pwd s text h
      have := (C24_reads (pwd := pwd) (s := s) hc hn).2.2.1 h
      simpa [dictText, List.map_map, Function.comp_def] using this
    · intro pwd s text h
      have := (C24_reads (pwd := pwd) (s := s) hc hn).1 h
      simpa [vectorText, List.map_map, Function.comp_def] using this
    · intro pwd s text h
      have := (C24_reads (pwd := pwd) (s := s) hc hn).2.1 h
      simpa [vectorText, List.map_map, Function.comp_def] using this
    · intro pwd s text h; rw [List.length_map]; exact (C24_reads hc hn).2.2.2.1 h
    · intro pwd s text h; rw [List.length_map, truth_congr List.length_eq_zero_iff]; exact (C24_reads hc hn).2.2.2.2 h
  · intro x hx
    obtain ⟨y, _, rfl⟩ := List.mem_map.1 hx
    exact repr_ne_null _ _
  · rw [List.map_map]
    have h1 := (C24_keys_ascending ht hc hn).2.1
    have h2 : (l.map (·.1)).map (Obj.repr c.cfg.prec) = l.map ((·.1) ∘ fun x => (x.1.repr c.cfg.prec, x.2.repr c.cfg.prec)) := by
      rw [List.map_map]; rfl
    rw [← h2]
    refine nodup_map (fun x hx y hy e => ?_) h1
    obtain ⟨x', hx', rfl⟩ := List.mem_map.1 hx
    obtain ⟨y', hy', rfl⟩ := List.mem_map.1 hy
    exact repr_inj ht _ (hw x' hx').1 (hw y' hy').1 e
  · intro pwd s text h
    have h1 := C24_containsKey (pwd := pwd) (s := s) ht hc hn h ha
    convert h1 using 1
    refine truth_congr ?_
    rw [List.map_map, List.mem_map, List.mem_map]
    refine exists_congr fun x => and_congr_right fun hx => ⟨fun e => repr_inj ht _ (hw x hx).1 (denotes_type ha) e, fun e => ?_⟩
    rw [← e]; rfl
  · intro pwd s text h
    by_cases hk : ∃ v, (o, v) ∈ l
    · obtain ⟨v, hv⟩ := hk
      have e : (l.map fun x => (x.1.repr c.cfg.prec, x.2.repr c.cfg.prec)).lookup (o.repr c.cfg.prec) = some (v.repr c.cfg.prec) := by
        have hf : ∀ v', (o, v') ∈ l → v' = v := fun v' h' => (C24_keys_ascending ht hc hn).2.2 o v' v h' hv
        clear hn h
        induction l with
        | nil => cases hv
        | cons x l ih =>
          rw [List.map_cons, List.lookup_cons]
          by_cases hx : o.repr c.cfg.prec = x.1.repr c.cfg.prec
          · have ex := repr_inj ht _ (denotes_type ha) (hw x (List.mem_cons_self ..)).1 hx
            rw [beq_iff_eq.2 hx]
            simp only
            rw [hf x.2 (by rw [ex]; exact List.mem_cons_self ..)]
          · rw [beq_eq_false_iff_ne.2 hx]
            refine ih (fun y hy => hw y (List.mem_cons_of_mem _ hy)) ?_ (fun v' h' => hf v' (List.mem_cons_of_mem _ h'))
            rcases List.mem_cons.1 hv with e | e
            · subst e; exact absurd rfl hx
            · exact e
      rw [e]
      exact C24_getValueForKey ht hc hn h ha hv
    · have hk' : ∀ v, (o, v) ∉ l := fun v hv => hk ⟨v, hv⟩
      have e : (l.map fun x => (x.1.repr c.cfg.prec, x.2.repr c.cfg.prec)).lookup (o.repr c.cfg.prec) = none := by
        rw [List.lookup_eq_none_iff]
        intro y hy
        obtain ⟨x, hx, rfl⟩ := List.mem_map.1 hy
        rw [bne_iff_ne]
        intro e
        refine hk' x.2 ?_
        rw [repr_inj ht _ (denotes_type ha) (hw x hx).1 e]; exact hx
      rw [e]
      exact C24_getValueForKey_unknown ht hc hn h ha hk'

/-- C97: `containsKey?` says `true` iff `getValueForKey:` does not say `null`. -/
theorem C97_containsKey_iff_value [StdSort] {pwd pwd' : Str} {s s' : Option Session} {text text' a r : Str} {o : Obj} {l : List (Obj × Obj)}
    (ht : t ≠ b!"Float") (hc : Reachable c) (hn : Holds c n (.dictionary t u l)) (ha : Denotes t a o)
    (h : Statement text n b!"containsKey?" [a]) (h' : Statement text' n b!"getValueForKey:" [a]) (hr : JustReplies pwd' c s' text' r) :
    JustReplies pwd c s text (truth (r ≠ b!"null")) := by
  obtain ⟨xs, _, hx, h3⟩ := C97_dictionaries hc hn
  obtain ⟨h1, h2⟩ := (h3 ht).2 a o ha
  have e := reply_unique hr (h2 _ _ _ h')
  convert h1 pwd s text h using 1
  refine truth_congr ?_
  rw [e]
  cases hl : xs.lookup (o.repr c.cfg.prec) with
  | none =>
    refine ⟨fun h => absurd rfl h, fun h => ?_⟩
    obtain ⟨y, hy, e⟩ := List.mem_map.1 h
    have := List.lookup_eq_none_iff.1 hl y hy
    rw [bne_iff_ne] at this
    exact absurd e.symm this
  | some v =>
    have hm := List.lookup_eq_some_iff.1 hl
    obtain ⟨l1, l2, rfl, _⟩ := hm
    have hm : (o.repr c.cfg.prec, v) ∈ l1 ++ (o.repr c.cfg.prec, v) :: l2 := List.mem_append_right _ (List.mem_cons_self ..)
    exact ⟨fun _ => List.mem_map.2 ⟨_, hm, rfl⟩, fun _ => hx _ hm⟩

/-! ### Strings -/

theorem asked_str [StdSort] {v name r : Str} {args : List Str} {m : StrMsg} (hc : Reachable c) (hn : Holds c n (.string v))
    (hm : StrSays name args m) (e : strMeaning v m = .gives v r) : Asked c n name args r := by
  intro pwd s text h
  have h1 := answers_str (pwd := pwd) (s := s) hc hn h hm
  rw [e] at h1
  exact justReplies_of hc hn h1

/-- C97: what the questions about a string answer comes from one list of bytes; `startsWith?` and `endsWith?` compare the literal with what
`first:` and `last:` return for the number of its bytes; two strings are lexicographically equal iff `get` returns the literal. -/
theorem C97_strings [StdSort] {v : Str} (hc : Reachable c) (hn : Holds c n (.string v)) :
    StringReads c n v ∧ ∀ a w, StringLiteral a w →
      Asked c n b!"startsWith?" [a] (truth (quoted (v.take w.length) = a)) ∧
      Asked c n b!"endsWith?" [a] (truth (quoted (v.drop (v.length - w.length)) = a)) ∧
      Asked c n b!"isLexicographicallyEqualTo?" [a] (truth (quoted v = a)) := by
  have key : ∀ {a w x : Str}, StringLiteral a w → (quoted x = a ↔ x = w) := by
    intro a w x h
    rw [← literal_quoted a w h]
    exact ⟨fun e => quoted_inj _ _ e, fun e => by rw [e]⟩
  refine ⟨?_, fun a w ha => ⟨?_, ?_, ?_⟩⟩
  · constructor
    · exact asked_str hc hn .get rfl
    · exact asked_str hc hn .length rfl
    · rw [truth_congr List.length_eq_zero_iff]; exact asked_str hc hn .isEmpty rfl
    · intro a i ha h
      refine asked_str hc hn (.atIndex ha) ?_
      simp only [strMeaning]
      rw [dif_pos ⟨by omega, by omega⟩]
      simp
    · intro a i ha h pwd s text hs
      have h1 := answers_str (pwd := pwd) (s := s) hc hn hs (.atIndex ha)
      simp only [strMeaning] at h1
      rwa [dif_neg (by omega)] at h1
    · intro a k ha
      refine asked_str hc hn (.first ha) ?_
      simp only [strMeaning]
      rw [if_pos (by omega)]; simp
    · intro a k ha
      refine asked_str hc hn (.last ha) ?_
      simp only [strMeaning]
      rw [if_pos (by omega)]; simp
    · intro a i ha h
      refine asked_str hc hn (.substring ha) ?_
      simp only [strMeaning]
      rw [if_pos (by omega)]; simp
    · intro a b i j ha hb h h'
      refine asked_str hc hn (.substringTo ha hb) ?_
      simp only [strMeaning]
      rw [if_pos (by omega)]; simp
  · refine asked_str hc hn (.startsWith ha) ?_
    simp only [strMeaning]
    rw [truth_congr (key ha), truth_congr (p := w <+: v) (List.prefix_iff_eq_take.trans eq_comm)]
  · refine asked_str hc hn (.endsWith ha) ?_
    simp only [strMeaning]
    rw [truth_congr (key ha), truth_congr (p := w <:+ v) (List.suffix_iff_eq_drop.trans eq_comm)]
  · refine asked_str hc hn (.eq ha) ?_
    simp only [strMeaning]
    rw [truth_congr (key ha)]

/-! ### Examples -/

/-- The vector `[3,1,2]` of the demonstration, asked for `2`. -/
example [StdSort] : Holds demo b!"v" (.vector b!"Integer" [.integer 3, .integer 1, .integer 2]) ∧ Denotes b!"Integer" b!"2" (.integer 2) ∧
    Statement b!"v allIndexesOf: 2;" b!"v" b!"allIndexesOf:" [b!"2"] ∧ JustReplies [] demo none b!"v allIndexesOf: 2;" b!"[2]" ∧
    JustReplies [] demo none b!"v firstIndexOf: 2 fromIndex: 1;" b!"2" ∧ Statement b!"v removeAll: 2;" b!"v" b!"removeAll:" [b!"2"] ∧
    Statement b!"v replaceAll: 2 with: 1;" b!"v" b!"replaceAll:with:" [b!"2", b!"1"] :=
  ⟨by decide +kernel, lit_int (by decide +kernel) (by decide +kernel) (by decide), reads (by kernel_rfl),
    ⟨demo, by unfold Replies; kernel_rfl, rfl, rfl⟩, ⟨demo, by unfold Replies; kernel_rfl, rfl, rfl⟩, reads (by kernel_rfl), reads (by kernel_rfl)⟩

/-- The set, the dictionary and the string of the demonstration. -/
example [StdSort] : Holds demo b!"t" (.set b!"String" [.string b!"x", .string b!"y"]) ∧
    Holds demo b!"d" (.dictionary b!"Character" b!"Integer" [(.character c!"k", .integer 1)]) ∧ Holds demo b!"a::s" (.string b!"say \"hi\"") ∧
    JustReplies [] demo none b!"d containsKey? 'k';" b!"true" ∧ JustReplies [] demo none b!"d getValueForKey: 'k';" b!"1" ∧
    JustReplies [] demo none b!"d getValueForKey: 'z';" b!"null" ∧ JustReplies [] demo none b!"d containsKey? 'z';" b!"false" ∧
    JustReplies [] demo none b!"a::s startsWith? \"say\";" b!"true" :=
  ⟨by decide +kernel, by decide +kernel, by decide +kernel, ⟨demo, by unfold Replies; kernel_rfl, rfl, rfl⟩, ⟨demo, by unfold Replies; kernel_rfl, rfl, rfl⟩,
    ⟨demo, by unfold Replies; kernel_rfl, rfl, rfl⟩, ⟨demo, by unfold Replies; kernel_rfl, rfl, rfl⟩, ⟨demo, by unfold Replies; kernel_rfl, rfl, rfl⟩⟩

/-! ### Every theorem applied to a case -/

example [StdSort] := C97_vectors (c := demo) (n := b!"v") (t := b!"Integer") (l := [.integer 3, .integer 1, .integer 2]) (by meets) (by meets)
example [StdSort] := C97_removeAll (pwd := []) (s := none) (c := demo) (n := b!"v") (text := b!"v removeAll: 1;") (a := b!"1") (o := .integer 1)
  (t := b!"Integer") (l := [.integer 3, .integer 1, .integer 2]) (by meets) (by meets) (by meets) (by meets)
example [StdSort] := C97_replaceAll (pwd := []) (s := none) (c := demo) (n := b!"v") (text := b!"v replaceAll: 1 with: 3;") (a := b!"1") (b := b!"3")
  (o := .integer 1) (r := .integer 3) (t := b!"Integer") (l := [.integer 3, .integer 1, .integer 2]) (by meets) (by meets) (by meets)
  (by meets) (by meets)
example [StdSort] := C97_sets (c := demo) (n := b!"t") (t := b!"String") (l := [.string b!"x", .string b!"y"]) (by meets) (by meets)
example [StdSort] := C97_dictionaries (c := demo) (n := b!"d") (t := b!"Character") (u := b!"Integer") (l := [(.character c!"k", .integer 1)])
  (by meets) (by meets)
example [StdSort] := C97_containsKey_iff_value (pwd := []) (pwd' := []) (s := none) (s' := none) (c := demo) (n := b!"d") (t := b!"Character")
  (u := b!"Integer") (l := [(.character c!"k", .integer 1)]) (a := b!"'q'") (o := .character c!"q") (text := b!"d containsKey? 'q';")
  (text' := b!"d getValueForKey: 'q';") (r := b!"null") (by meets) (by meets) (by meets) (.character _) (by meets) (by meets) (by meets)

end Knuckle.Props

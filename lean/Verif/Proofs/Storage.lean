/-
Bounds for what a context stores.
-/
import Verif.Spec.Storage
import Verif.Proofs.Clean

namespace Knuckle

open Spec

/-! ### Objects -/

theorem vec_cells {cfg : Cfg} {l l' : List Obj} {m : VecMsg} {r : Str} (e : vecMeaning cfg l m = .gives l' r) :
    l'.length ≤ l.length + 1 := by
  cases m <;> simp only [vecMeaning] at e <;> (try split at e) <;> (try split at e) <;> cases e <;>
    (try simp only [List.length_append, List.length_cons, List.length_nil, List.length_reverse, List.length_map, List.length_set,
      List.length_take, List.length_drop, List.length_dropLast]) <;> (try omega)
  · rw [List.length_eraseIdx]; split <;> omega
  · rw [List.length_insertIdx]; split <;> omega
  · rename_i o
    have := (List.eraseP_sublist (p := (same cfg.eps · o)) (l := l)).length_le
    exact Nat.le_succ_of_le this
  · rename_i o i _
    have := (List.eraseP_sublist (p := (same cfg.eps · o)) (l := l.drop i.toNat)).length_le
    rw [List.length_drop] at this; omega
  · exact Nat.le_succ_of_le (List.length_filter_le _ _)

theorem two_filters {α : Type} (p q : α → Bool) (l : List α) (h : ∀ x ∈ l, ¬ (p x = true ∧ q x = true)) :
    (l.filter p).length + (l.filter q).length ≤ l.length := by
  induction l with
  | nil => simp
  | cons x l ih =>
    have h1 := h x (by simp)
    have h2 := ih fun y hy => h y (List.mem_cons_of_mem _ hy)
    simp only [List.filter_cons, List.length_cons]
    split <;> split <;> simp_all <;> omega

theorem searchable_asymm {lt : Obj → Obj → Bool} {l : List Obj} {k : Obj} (h : Searchable lt l k) :
    ∀ x ∈ l, ¬ (lt x k = true ∧ lt k x = true) := by
  intro x hx ⟨h1, h2⟩
  obtain ⟨⟨hi, ht, _⟩, _⟩ := h
  exact hi x (by simp [hx]) (ht x (by simp [hx]) k (by simp) x (by simp [hx]) h1 h2)

theorem set_cells {cfg : Cfg} {l l' : List Obj} {m : SetMsg} {r : Str} (e : setMeaning cfg l m = .gives l' r) :
    l'.length ≤ l.length + 1 := by
  cases m <;> simp only [setMeaning] at e
  case add o =>
    split at e
    · rename_i hs
      split at e <;> cases e
      · omega
      · have := two_filters (fun x => less cfg.eps x o) (fun x => less cfg.eps o x) l (searchable_asymm hs)
        simp only [List.length_append, List.length_cons]; omega
    · cases e
  case remove o => split at e <;> cases e; exact Nat.le_succ_of_le (List.length_filter_le _ _)
  case contains o => split at e <;> cases e; omega
  all_goals cases e; simp

theorem dict_cells {cfg : Cfg} {l l' : List (Obj × Obj)} {m : DictMsg} {r : Str} (e : dictMeaning cfg l m = .gives l' r) :
    l'.length ≤ l.length + 1 := by
  cases m <;> simp only [dictMeaning] at e
  case associate v k =>
    split at e
    · rename_i hs
      split at e <;> cases e
      · simp
      · have := two_filters (fun x : Obj × Obj => less cfg.eps x.1 k) (fun x => less cfg.eps k x.1) l
          (fun x hx => searchable_asymm hs x.1 (List.mem_map_of_mem hx))
        simp only [List.length_append, List.length_cons]; omega
    · cases e
  case removeKey o => split at e <;> cases e; exact Nat.le_succ_of_le (List.length_filter_le _ _)
  case containsKey o => split at e <;> cases e; omega
  case getValueForKey o =>
    split at e
    · split at e <;> cases e <;> omega
    · cases e
  all_goals cases e; simp

theorem behaves_cells {cfg : Cfg} {i i' : Inst} {name r : Str} {args : List Str} (h : Behaves cfg i name args (.gives i' r)) :
    cellsOf i' ≤ cellsOf i + 1 := by
  generalize hx : Result.gives i' r = x at h
  cases h with
  | vector h => obtain ⟨w, e, rfl⟩ := map_gives hx.symm; have := vec_cells e; simp only [cellsOf]; omega
  | set h => obtain ⟨w, e, rfl⟩ := map_gives hx.symm; have := set_cells e; simp only [cellsOf]; omega
  | dictionary h => obtain ⟨w, e, rfl⟩ := map_gives hx.symm; have := dict_cells e; simp only [cellsOf]; omega
  | sort h1 h2 h3 => cases hx; simp only [cellsOf, h2.length_eq]; omega
  | sortUndefined h => cases hx
  | _ => obtain ⟨w, e, rfl⟩ := map_gives hx.symm; simp only [cellsOf]; omega

/-- The objects of a list of variables. -/
def cellsIn (l : List (Str × Inst)) : Nat := (l.map fun v => cellsOf v.2).sum

theorem cellsIn_filter (p : Str × Inst → Bool) (l : List (Str × Inst)) : cellsIn (l.filter p) ≤ cellsIn l := by
  induction l with
  | nil => simp
  | cons x l ih =>
    unfold cellsIn at ih ⊢
    simp only [List.filter_cons]
    split <;> simp only [List.map_cons, List.sum_cons] <;> omega

theorem cellsIn_insert (n : Str) (i : Inst) (hi : cellsOf i = 1) (l : List (Str × Inst)) :
    cellsIn (mapInsert strLt n i l) ≤ cellsIn l + 1 := by
  induction l with
  | nil => simp [cellsIn, mapInsert, hi]
  | cons x l ih =>
    unfold cellsIn at ih ⊢
    simp only [mapInsert]
    split
    · simp only [List.map_cons, List.sum_cons]; omega
    · split <;> simp only [List.map_cons, List.sum_cons, hi] <;> omega

theorem cellsIn_update (n : Str) (i i' : Inst) (l : List (Str × Inst)) (h : l.lookup n = some i) (hi : cellsOf i' ≤ cellsOf i + 1) :
    cellsIn (updateVar n i' l) ≤ cellsIn l + 1 := by
  induction l with
  | nil => simp [cellsIn, updateVar]
  | cons x l ih =>
    obtain ⟨m, j⟩ := x
    unfold cellsIn at ih ⊢
    simp only [updateVar]
    by_cases e : m = n
    · subst e
      simp only [List.lookup_cons, beq_self_eq_true] at h
      cases h
      simp only [beq_self_eq_true, if_true, List.map_cons, List.sum_cons]; omega
    · have e2 : (m == n) = false := by simpa using e
      have e3 : (n == m) = false := by simpa using fun h => e h.symm
      simp only [List.lookup_cons, e3] at h
      have := ih h
      simp only [e2, List.map_cons, List.sum_cons, Bool.false_eq_true, if_false]; omega

theorem does_cells {pwd : Str} {c c' : Ctx} {s s' : Option Session} {text r : Str}
    (h : Does pwd c s text (.ret (c', s') r)) : cells c' ≤ cells c + 1 := by
  generalize hy : Run.ret (c', s') r = y at h
  cases h with
  | @created a n l v i hs _ hcr hl =>
    cases hy
    exact cellsIn_insert _ _ (by cases hcr with
      | value _ _ _ hd => cases hd <;> rfl
      | _ => rfl) _
  | kept => cases hy; omega
  | context hs h =>
    cases h <;> cases hy
    case context.delete.refl => exact Nat.le_succ_of_le (cellsIn_filter _ _)
    case context.deleteOf.refl => exact Nat.le_succ_of_le (cellsIn_filter _ _)
    all_goals exact Nat.le_succ _
  | @varGives a n l i ks i' r hs hv hl _ _ _ hb => cases hy; exact cellsIn_update _ _ _ _ hl (behaves_cells hb)
  | connection hs _ h => cases h <;> cases hy <;> exact Nat.le_succ _
  | _ => cases hy

theorem execute_cells [StdSort] {pwd : Str} {c c' : Ctx} (hc : Inv c) {s s' : Option Session} {text r : Str}
    (h : execute pwd c s text = .done (c', s', r)) : cells c' ≤ cells c + 1 := by
  obtain ⟨x, rfl, hd | ⟨e, hd, rfl⟩⟩ := execute_done hc h
  · unfold cells; rw [record_vars]; exact does_cells hd
  · rw [(does_thr hd).1]; unfold cells; rw [record_vars]; exact Nat.le_succ _

theorem history_cells [StdSort] {c c' : Ctx} {h : List (Str × Str)} (hc : Reachable c) (hh : History c h c') :
    cells c' ≤ cells c + h.length := by
  induction hh with
  | nil => simp
  | cons he _ ih =>
    have h1 := execute_cells (reachable_inv hc) he
    have h2 := ih (.step hc he)
    simp only [List.length_cons]; omega

/-! ### Texts -/

theorem unescaped_length {b v : Str} (h : Unquoted b v) : v.length ≤ b.length := by
  induction h with
  | nil => simp
  | quote _ ih => simp only [List.length_cons]; omega
  | other _ _ _ ih => simp only [List.length_cons]; omega

theorem stringLit_length {a v : Str} (h : StringLiteral a v) : v.length + 2 ≤ a.length := by
  obtain ⟨b, rfl, _, hu⟩ := h
  have := unescaped_length hu
  simp only [List.length_cons, List.length_append, List.length_nil]; omega

theorem denotes_length {t a : Str} {o : Obj} (h : Denotes t a o) : (textOf o).length ≤ a.length := by
  cases h with
  | string h => have := stringLit_length h; simp only [textOf]; omega
  | _ => simp [textOf]

/-- All texts of a value have at most `B` bytes. -/
def Short (B : Nat) (i : Inst) : Prop := ∀ x ∈ textsOf i, x.length ≤ B

theorem str_length {v v' : Str} {B k : Nat} (hv : v.length ≤ B) {name r : Str} {args : List Str} (ha : ∀ a ∈ args, a.length ≤ k)
    {m : StrMsg} (h : StrSays name args m) (e : strMeaning v m = .gives v' r) : v'.length ≤ B + k := by
  cases h with
  | set h1 => cases e; have := stringLit_length h1; have := ha _ (List.mem_singleton.2 rfl); omega
  | @pushBack c =>
    cases e; have := ha _ (List.mem_singleton.2 rfl)
    simp only [List.length_cons, List.length_nil, List.length_append] at this ⊢; omega
  | @pushFront c =>
    cases e; have := ha _ (List.mem_singleton.2 rfl)
    simp only [List.length_cons, List.length_nil] at this ⊢; omega
  | concatenate h1 =>
    cases e; have := stringLit_length h1; have := ha _ (List.mem_singleton.2 rfl)
    simp only [List.length_append]; omega
  | insert h1 h2 =>
    simp only [strMeaning] at e
    split at e <;> cases e
    have := stringLit_length h1; have := ha _ (List.mem_cons_self ..)
    simp only [List.length_append, List.length_take, List.length_drop]; omega
  | popAtIndex => simp only [strMeaning] at e; split at e <;> cases e; rw [List.length_eraseIdx]; split <;> omega
  | _ =>
    simp only [strMeaning] at e
    (try split at e) <;> cases e <;>
    (try simp only [List.length_append, List.length_cons, List.length_nil, List.length_take, List.length_drop, List.length_dropLast] at *) <;> omega

open Classical in
theorem set_elems {cfg : Cfg} {t : Str} {l l' : List Obj} {P : Obj → Prop} (hl : ∀ o ∈ l, P o) {name r : Str} {args : List Str}
    {m : SetMsg} (h : SetSays t name args m) (e : setMeaning cfg l m = .gives l' r)
    (hP : ∀ a ∈ args, ∀ o, Denotes t a o → P o) : ∀ o ∈ l', P o := by
  cases h with
  | contains h1 => simp only [setMeaning] at e; split at e <;> cases e; exact hl
  | add h1 =>
    simp only [setMeaning] at e
    split at e <;> (try cases e)
    split at e <;> cases e
    · exact hl
    · intro x hx
      rcases List.mem_append.1 hx with hx | hx
      · exact hl x (List.mem_of_mem_filter hx)
      · rcases List.mem_cons.1 hx with rfl | hx
        · exact hP _ (by simp) _ h1
        · exact hl x (List.mem_of_mem_filter hx)
  | remove h1 => simp only [setMeaning] at e; split at e <;> cases e; exact fun x hx => hl x (List.mem_of_mem_filter hx)
  | clear => cases e; simp
  | _ => cases e; exact hl

open Classical in
theorem dict_elems {cfg : Cfg} {t u : Str} {l l' : List (Obj × Obj)} {P R : Obj → Prop} (hl : ∀ o ∈ l, P o.1 ∧ R o.2) {name r : Str}
    {args : List Str} {m : DictMsg} (h : DictSays t u name args m) (e : dictMeaning cfg l m = .gives l' r)
    (hP : ∀ a ∈ args, ∀ o, Denotes t a o → P o) (hR : ∀ a ∈ args, ∀ o, Denotes u a o → R o) : ∀ o ∈ l', P o.1 ∧ R o.2 := by
  cases h with
  | containsKey h1 => simp only [dictMeaning] at e; split at e <;> cases e; exact hl
  | getValueForKey h1 =>
    simp only [dictMeaning] at e; split at e <;> (try cases e)
    split at e <;> cases e <;> exact hl
  | associate h1 h2 =>
    have hv := hR _ (by simp) _ h1
    have hk := hP _ (by simp) _ h2
    simp only [dictMeaning] at e
    split at e <;> (try cases e)
    split at e <;> cases e
    · intro x hx
      obtain ⟨y, hy, rfl⟩ := List.mem_map.1 hx
      split
      · exact ⟨(hl y hy).1, hv⟩
      · exact hl y hy
    · intro x hx
      rcases List.mem_append.1 hx with hx | hx
      · exact hl x (List.mem_of_mem_filter hx)
      · rcases List.mem_cons.1 hx with rfl | hx
        · exact ⟨hk, hv⟩
        · exact hl x (List.mem_of_mem_filter hx)
  | removeKey h1 => simp only [dictMeaning] at e; split at e <;> cases e; exact fun x hx => hl x (List.mem_of_mem_filter hx)
  | clear => cases e; simp
  | _ => cases e; exact hl

theorem short_list {B : Nat} {l : List Obj} : (∀ x ∈ l.map textOf, x.length ≤ B) ↔ ∀ o ∈ l, (textOf o).length ≤ B := by
  simp

theorem short_dict {B : Nat} {t u : Str} {l : List (Obj × Obj)} :
    Short B (.dictionary t u l) ↔ ∀ o ∈ l, (textOf o.1).length ≤ B ∧ (textOf o.2).length ≤ B := by
  unfold Short
  simp only [textsOf, List.mem_append]
  constructor
  · intro h o ho
    exact ⟨h _ (.inl (List.mem_map_of_mem (f := fun p : Obj × Obj => textOf p.1) ho)),
      h _ (.inr (List.mem_map_of_mem (f := fun p : Obj × Obj => textOf p.2) ho))⟩
  · rintro h x (hx | hx) <;> obtain ⟨y, hy, rfl⟩ := List.mem_map.1 hx
    · exact (h y hy).1
    · exact (h y hy).2

theorem behaves_short {cfg : Cfg} {i i' : Inst} {B k : Nat} (hi : Short B i) {name r : Str} {args : List Str}
    (ha : ∀ a ∈ args, a.length ≤ k) (h : Behaves cfg i name args (.gives i' r)) : Short (B + k) i' := by
  have hP : ∀ a ∈ args, ∀ t o, Denotes t a o → (textOf o).length ≤ B + k := fun a h1 t o hd => by
    have := denotes_length hd; have := ha a h1; omega
  have up : ∀ {x : Nat}, x ≤ B → x ≤ B + k := fun h => Nat.le_trans h (Nat.le_add_right _ _)
  generalize hx : Result.gives i' r = x at h
  cases h with
  | string h =>
    obtain ⟨w, e, rfl⟩ := map_gives hx.symm
    intro x hx
    rw [List.mem_singleton.1 hx]
    exact str_length (hi _ (List.mem_singleton.2 rfl)) ha h e
  | vector h =>
    obtain ⟨w, e, rfl⟩ := map_gives hx.symm
    exact short_list.2 (vec_elems _ _ _ (fun o ho => up (short_list.1 hi o ho)) _ _ _ h _ _ e fun a h1 o hd => hP a h1 _ o hd)
  | sort h1 h2 h3 => cases hx; exact short_list.2 fun x hx => up (short_list.1 hi x (h2.mem_iff.1 hx))
  | sortUndefined h => cases hx
  | set h =>
    obtain ⟨w, e, rfl⟩ := map_gives hx.symm
    exact short_list.2 (set_elems (fun o ho => up (short_list.1 hi o ho)) h e fun a h1 o hd => hP a h1 _ o hd)
  | dictionary h =>
    obtain ⟨w, e, rfl⟩ := map_gives hx.symm
    exact short_dict.2 (dict_elems (P := fun o => (textOf o).length ≤ B + k) (R := fun o => (textOf o).length ≤ B + k)
      (fun o ho => ⟨up (short_dict.1 hi o ho).1, up (short_dict.1 hi o ho).2⟩) h e (fun a h1 o hd => hP a h1 _ o hd)
      fun a h1 o hd => hP a h1 _ o hd)
  | _ => obtain ⟨w, e, rfl⟩ := map_gives hx.symm; intro x hx; cases hx

theorem keyword_arg_length {text name : Str} {args : List Str} (h : KeywordMessage text name args) :
    ∀ a ∈ args, a.length ≤ text.length := by
  induction h with
  | one h1 h2 h3 =>
    intro a ha
    rw [List.mem_singleton.1 ha]
    simp only [List.length_append]; omega
  | more h1 h2 h3 h4 h5 h6 ih =>
    intro a ha
    simp only [List.length_append, List.length_cons]
    rcases List.mem_cons.1 ha with rfl | ha
    · omega
    · have := ih a ha; omega

theorem statement_arg_length {text a n : Str} {l : List Str} (h : Statement text a n l) : ∀ x ∈ l, x.length ≤ text.length := by
  obtain ⟨w₁, c, w₂, msg, w₃, w₄, rfl, _, _, _, _, hm, _, _⟩ := h
  rcases hm with ⟨_, _, rfl⟩ | hm
  · simp
  · intro x hx
    have := keyword_arg_length hm x hx
    simp only [List.length_append, List.length_cons]; omega

/-- All texts in a context have at most `B` bytes. -/
def ShortCtx (B : Nat) (c : Ctx) : Prop := ∀ v ∈ c.vars, v.1.length ≤ B ∧ Short B v.2

theorem short_mono {B B' : Nat} (h : B ≤ B') {i : Inst} (hi : Short B i) : Short B' i := fun x hx => Nat.le_trans (hi x hx) h

theorem shortCtx_mono {B B' : Nat} (h : B ≤ B') {c : Ctx} (hi : ShortCtx B c) : ShortCtx B' c :=
  fun v hv => ⟨Nat.le_trans (hi v hv).1 h, short_mono h (hi v hv).2⟩

theorem mem_mapInsert {n : Str} {i : Inst} {l : List (Str × Inst)} (hl : l.lookup n = none) {v : Str × Inst}
    (h : v ∈ mapInsert strLt n i l) : v = (n, i) ∨ v ∈ l := by
  induction l with
  | nil => simpa [mapInsert] using h
  | cons x l ih =>
    simp only [mapInsert] at h
    split at h
    · rcases List.mem_cons.1 h with rfl | h
      · exact .inr (by simp)
      · have hl' : l.lookup n = none := by
          obtain ⟨m, j⟩ := x
          rw [List.lookup_cons] at hl
          split at hl
          · cases hl
          · exact hl
        rcases ih hl' h with h | h
        · exact .inl h
        · exact .inr (by simp [h])
    · split at h
      · rcases List.mem_cons.1 h with rfl | h
        · exact .inl rfl
        · exact .inr h
      · rename_i h1 h2
        exfalso
        have : x.1 = n := strLt_total x.1 n (by simpa using h1) (by simpa using h2)
        obtain ⟨m, j⟩ := x
        subst this
        simp at hl

theorem mem_updateVar {n : Str} {i : Inst} {l : List (Str × Inst)} {v : Str × Inst} (h : v ∈ updateVar n i l) :
    v = (n, i) ∨ v ∈ l := by
  induction l with
  | nil => cases h
  | cons x l ih =>
    simp only [updateVar] at h
    split at h
    · rename_i e
      have e : x.1 = n := by simpa using e
      rcases List.mem_cons.1 h with rfl | h
      · exact .inl (by rw [e])
      · exact .inr (by simp [h])
    · rcases List.mem_cons.1 h with rfl | h
      · exact .inr (by simp)
      · rcases ih h with h | h
        · exact .inl h
        · exact .inr (by simp [h])

theorem mem_of_lookup {n : Str} {i : Inst} {l : List (Str × Inst)} (h : l.lookup n = some i) : (n, i) ∈ l := by
  induction l with
  | nil => cases h
  | cons x l ih =>
    obtain ⟨m, j⟩ := x
    rw [List.lookup_cons] at h
    split at h
    · rename_i e
      have e : n = m := by simpa using e
      cases h; subst e; simp
    · exact List.mem_cons_of_mem _ (ih h)

theorem does_short {pwd : Str} {c c' : Ctx} {s s' : Option Session} {text r : Str} {B : Nat} (hq : ShortCtx B c)
    (h : Does pwd c s text (.ret (c', s') r)) : ShortCtx (B + text.length) c' := by
  have hq' : ShortCtx (B + text.length) c := shortCtx_mono (Nat.le_add_right _ _) hq
  have filt : ∀ p : Str × Inst → Bool, ShortCtx (B + text.length) { c with vars := c.vars.filter p } :=
    fun p v hv => hq' v (List.mem_of_mem_filter hv)
  generalize hy : Run.ret (c', s') r = y at h
  cases h with
  | @created a n l v i hs _ hcr hl =>
    cases hy
    intro w hw
    rcases mem_mapInsert hl hw with rfl | hw
    · have hlen := statement_arg_length hs
      cases hcr with
      | value _ _ _ hd =>
        refine ⟨Nat.le_trans (hlen _ (by simp)) (Nat.le_add_left _ _), ?_⟩
        have h1 := denotes_length hd
        have h2 := hlen _ (List.mem_cons_of_mem _ (List.mem_singleton.2 rfl))
        intro x hx
        cases hd with
        | string => rw [List.mem_singleton.1 hx]; simp only [textOf] at h1; omega
        | _ => cases hx
      | string => exact ⟨Nat.le_trans (hlen _ (by simp)) (Nat.le_add_left _ _), fun x hx => by rw [List.mem_singleton.1 hx]; simp⟩
      | vector => exact ⟨Nat.le_trans (hlen _ (by simp)) (Nat.le_add_left _ _), fun x hx => by cases hx⟩
      | set => exact ⟨Nat.le_trans (hlen _ (by simp)) (Nat.le_add_left _ _), fun x hx => by cases hx⟩
      | dictionary => exact ⟨Nat.le_trans (hlen _ (by simp)) (Nat.le_add_left _ _), fun x hx => by cases hx⟩
    · exact hq' w hw
  | kept => cases hy; exact hq'
  | context hs h =>
    cases h <;> cases hy
    case context.delete.refl => exact filt _
    case context.deleteOf.refl => exact filt _
    all_goals exact hq'
  | @varGives a n l i ks i' r hs hv hl _ _ _ hb =>
    cases hy
    intro w hw
    have hmem := hq _ (mem_of_lookup hl)
    rcases mem_updateVar hw with rfl | hw
    · exact ⟨Nat.le_trans hmem.1 (Nat.le_add_right _ _), behaves_short hmem.2 (statement_arg_length hs) hb⟩
    · exact hq' w hw
  | connection hs _ h => cases h <;> cases hy <;> exact hq'
  | _ => cases hy

theorem execute_short [StdSort] {pwd : Str} {c c' : Ctx} (hc : Inv c) {s s' : Option Session} {text r : Str} {B : Nat}
    (hq : ShortCtx B c) (h : execute pwd c s text = .done (c', s', r)) : ShortCtx (B + text.length) c' := by
  obtain ⟨x, rfl, hd | ⟨e, hd, rfl⟩⟩ := execute_done hc h
  · unfold ShortCtx; rw [record_vars]; exact does_short hq hd
  · rw [(does_thr hd).1]; unfold ShortCtx; rw [record_vars]; exact shortCtx_mono (Nat.le_add_right _ _) hq

theorem history_short [StdSort] {c c' : Ctx} {h : List (Str × Str)} {B : Nat} (hc : Reachable c) (hh : History c h c')
    (hq : ShortCtx B c) : ShortCtx (B + sentBytes h) c' := by
  induction hh generalizing B with
  | nil => exact hq
  | cons he _ ih =>
    have := ih (.step hc he) (execute_short (reachable_inv hc) hq he)
    simpa only [sentBytes, List.map_cons, List.sum_cons, Nat.add_assoc] using this

/-! ### Total -/

theorem sum_le_mul {l : List Nat} {B : Nat} (h : ∀ x ∈ l, x ≤ B) : l.sum ≤ l.length * B := by
  induction l with
  | nil => simp
  | cons x l ih =>
    have h1 := h x (by simp)
    have h2 := ih fun y hy => h y (by simp [hy])
    simp only [List.sum_cons, List.length_cons, Nat.add_mul]; omega

theorem textsOf_count (i : Inst) : (textsOf i).length + 1 ≤ 2 * cellsOf i := by
  cases i <;> simp [textsOf, cellsOf] <;> omega

theorem texts_count (c : Ctx) : (texts c).length ≤ 2 * cells c := by
  unfold texts cells
  induction c.vars with
  | nil => simp
  | cons x l ih =>
    have := textsOf_count x.2
    simp only [List.flatMap_cons, List.length_append, List.length_cons, List.map_cons, List.sum_cons]; omega

theorem storedBytes_le {c : Ctx} {B : Nat} (h : ShortCtx B c) : storedBytes c ≤ 2 * cells c * B := by
  have h1 : storedBytes c ≤ ((texts c).map List.length).length * B := by
    apply sum_le_mul
    intro x hx
    obtain ⟨y, hy, rfl⟩ := List.mem_map.1 hx
    obtain ⟨v, hv, hy⟩ := List.mem_flatMap.1 hy
    rcases List.mem_cons.1 hy with rfl | hy
    · exact (h v hv).1
    · exact (h v hv).2 y hy
  rw [List.length_map] at h1
  exact Nat.le_trans h1 (Nat.mul_le_mul_right _ (texts_count c))

end Knuckle

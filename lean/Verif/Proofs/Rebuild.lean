/-
The data of reachable contexts is proper, and proper data can be built.
-/
import Verif.Spec.Rebuild
import Verif.Proofs.Storage
import Verif.Proofs.Plain
import Verif.Props.Numbers
import Verif.Props.Strings
import Verif.Props.Floats
import Verif.Props.Requests

namespace Knuckle

open Spec Props

/-! ### Literals -/

theorem writable_type {t : Str} {o : Obj} (h : Writable t o) : HasType t o := by
  obtain ⟨a, h⟩ := h; exact denotes_type h

theorem writable_not_nan {t : Str} : ¬ Writable t (.float .nan) := by
  rintro ⟨a, h⟩
  obtain rfl : b!"Float" = t := (denotes_type h).1
  obtain ⟨neg, q, d, x, h1, h2, h3, h4⟩ := (C53_denotes a _).1 h
  injection h4 with h4
  subst h4
  obtain ⟨r, _, _, ⟨_, h5⟩ | ⟨_, rfl⟩⟩ := h2
  · generalize hx : Fl.nan = x at h3
    cases h3 with
    | nan => cases h5
    | inf => cases hx
    | num k1 k2 =>
      obtain ⟨r', _, _, ⟨_, h6⟩ | ⟨_, rfl⟩⟩ := k2
      · rw [← hx] at h6; cases h6
      · cases hx
  · generalize hx : Fl.nan = x at h3
    cases h3 with
    | inf => cases hx
    | num k1 k2 => cases k1

theorem denotes_atof {a : Str} {x : Fl} (h : isFloatValue a = true) (e : (atof a).toF32 = x) : Denotes b!"Float" a (.float x) := by
  subst e; exact .float ((isFloatValue_iff a).1 h)

/-- The literal of a float. -/
theorem float_literal {x : Fl} (h : x.toF32 = x) (hn : x ≠ .nan) : Denotes b!"Float" (literal (.float x)) (.float x) := by
  cases x with
  | nan => exact absurd rfl hn
  | inf neg =>
    cases neg
    · exact denotes_atof (a := b!"1e99") (by decide +kernel) (by kernel_rfl)
    · exact denotes_atof (a := b!"-1e99") (by decide +kernel) (by kernel_rfl)
  | fin neg k =>
    obtain ⟨m, h1, h2⟩ := fmtFixed_text 46 (by omega) neg k
    have hl := fixedText_literal h1
    have hq := number_fin neg k
    have hv := denotes_atof ((isFloatValue_iff _).2 ((floatLiteral_exists _).2 ⟨_, _, hl⟩)) rfl
    obtain ⟨k', e', hk, e⟩ := abs_number hq
    have hkk : k' = k := (Fl.fin.inj e').2.symm
    subst hkk
    rw [← hk] at h2
    have := denotes_near hl h rfl hq (text_error (m := (m : ℤ)) e h2) (fun x hx hne => ?_) hv
    · rw [this] at hv; exact hv
    · refine lt_of_lt_of_le ?_ (grid_apart_min (single_number h hq).1 hx hne)
      rw [show Int.toNat 46 = 46 from rfl]; norm_num

theorem denotes_of_type {t : Str} {o : Obj} (h : HasType t o) (hn : o ≠ .float .nan) (hs : ∀ v, o = .string v → ∃ a, StringLiteral a v) :
    Denotes t (literal o) o := by
  obtain ⟨rfl, h⟩ := h
  cases o with
  | boolean b => cases b; exact .false; exact .true
  | character c => exact .character c
  | integer n => exact .integer (intStr_literal n) h
  | float x => exact float_literal h (fun e => hn (by rw [e]))
  | string v =>
    obtain ⟨a, ha⟩ := hs v rfl
    have e := literal_quoted a v ha
    show Denotes b!"String" (quoted v) (.string v)
    rw [e]; exact .string ha

theorem writable_string {t v : Str} (h : Writable t (.string v)) : ∃ a, StringLiteral a v := by
  obtain ⟨a, h⟩ := h
  cases h with | string h => exact ⟨a, h⟩

theorem denotes_of_writable {t : Str} {o : Obj} (h : Writable t o) : Denotes t (literal o) o :=
  denotes_of_type (writable_type h) (by rintro rfl; exact writable_not_nan h) (by rintro v rfl; exact writable_string h)

/-! ### Reachable data is proper -/

theorem before_natLt {t : Str} {a b : Obj} (ht : t ≠ b!"Float") (ha : HasType t a) : Before a b ↔ natLt a b = true := by
  cases a with
  | float x => exact absurd ha.1.symm ht
  | _ => cases b <;> rfl

theorem hasType_float {o : Obj} (h : HasType b!"Float" o) : ∃ x, o = .float x ∧ x.toF32 = x := by
  obtain ⟨h1, h2⟩ := h
  cases o with
  | float x => exact ⟨x, rfl, h2⟩
  | _ => simp [Obj.type] at h1

/-- If the order of the program is irreflexive at two floats, it only puts the smaller number first. -/
theorem below_less {eps x y : Fl} (hx : x.toF32 = x) (hy : y.toF32 = y) (hx' : x ≠ .nan) (hy' : y ≠ .nan) (hxx : ¬ below eps x x)
    (h : below eps x y) : Less x y := by
  rw [less_iff, ← below_zero x y false hx hy hx' hy']
  unfold below at *
  cases x with
  | nan => exact absurd rfl hx'
  | inf a =>
    have e : ∀ e : Fl, Fl.lt (.inf false) e = false := by intro e; cases e <;> simp [Fl.lt]
    have e2 : ∀ e : Fl, Fl.lt .nan e = false := by intro e; cases e <;> simp [Fl.lt]
    cases y with
    | nan => exact absurd rfl hy'
    | inf b => cases a <;> cases b <;> simp_all [Fl.sub, Fl.neg, Fl.add, Fl.lt]
    | fin b k => cases a <;> simp_all [Fl.sub, Fl.neg, Fl.add, Fl.lt]
  | fin a j =>
    have z : (Fl.fin a j).sub f32 (.fin a j) = .fin false 0 := by
      cases a <;> simp [Fl.sub, Fl.neg, Fl.add, sgn]
    rw [z] at hxx
    generalize (Fl.fin a j).sub f32 y = d at h ⊢
    cases eps <;> cases d <;> simp_all [Fl.neg, Fl.lt]
    have e1 : sgn true 0 = 0 := rfl
    have e2 : sgn false 0 = 0 := rfl
    omega

theorem less_before {eps : Fl} {t : Str} {l : List Obj} (hs : StrictWeakOrder (less eps) l) (hw : ∀ o ∈ l, Writable t o)
    {a b : Obj} (ha : a ∈ l) (hb : b ∈ l) (h : less eps a b = true) : Before a b := by
  by_cases ht : t = b!"Float"
  · subst ht
    obtain ⟨x, rfl, hx⟩ := hasType_float (writable_type (hw a ha))
    obtain ⟨y, rfl, hy⟩ := hasType_float (writable_type (hw b hb))
    have h1 := hs.1 _ ha
    simp only [less, decide_eq_true_eq] at h h1
    exact below_less hx hy (by rintro rfl; exact writable_not_nan (hw _ ha)) (by rintro rfl; exact writable_not_nan (hw _ hb)) h1 h
  · rw [before_natLt ht (writable_type (hw a ha)), ← less_natLt eps t a b (writable_type (hw a ha)) (writable_type (hw b hb)) ht]
    exact h

theorem pairwise_insert {α : Type} {R : α → α → Prop} {p q : α → Bool} {o : α} {l : List α} (hl : l.Pairwise R)
    (h1 : ∀ x ∈ l, p x = true → R x o) (h2 : ∀ x ∈ l, q x = true → R o x) (h3 : ∀ x ∈ l, ∀ y ∈ l, p x = true → q y = true → R x y) :
    (l.filter p ++ o :: l.filter q).Pairwise R := by
  rw [List.pairwise_append, List.pairwise_cons]
  refine ⟨hl.filter _, ⟨fun y hy => ?_, hl.filter _⟩, fun x hx y hy => ?_⟩
  · obtain ⟨h4, h5⟩ := List.mem_filter.1 hy; exact h2 y h4 h5
  · obtain ⟨h4, h5⟩ := List.mem_filter.1 hx
    rcases List.mem_cons.1 hy with rfl | hy
    · exact h1 x h4 h5
    · obtain ⟨h6, h7⟩ := List.mem_filter.1 hy; exact h3 x h4 y h6 h5 h7

open Classical in
theorem set_before {cfg : Cfg} {t : Str} {l l' : List Obj} (hl : ∀ o ∈ l, Writable t o) (hb : l.Pairwise Before) {name r : Str}
    {args : List Str} {m : SetMsg} (h : SetSays t name args m) (e : setMeaning cfg l m = .gives l' r) : l'.Pairwise Before := by
  cases h with
  | contains h1 => simp only [setMeaning] at e; split at e <;> cases e; exact hb
  | @add a o h1 =>
    simp only [setMeaning] at e
    split at e
    · rename_i hs
      split at e <;> cases e
      · exact hb
      · have hw : ∀ x ∈ o :: l, Writable t x := by
          intro x hx; rcases List.mem_cons.1 hx with rfl | hx
          · exact ⟨a, h1⟩
          · exact hl x hx
        exact pairwise_insert hb (fun x hx h => less_before hs.1 hw (List.mem_cons_of_mem _ hx) (List.mem_cons_self ..) h)
          (fun x hx h => less_before hs.1 hw (List.mem_cons_self ..) (List.mem_cons_of_mem _ hx) h)
          (fun x hx y hy h h' => less_before hs.1 hw (List.mem_cons_of_mem _ hx) (List.mem_cons_of_mem _ hy)
            (hs.1.2.1 x (List.mem_cons_of_mem _ hx) o (List.mem_cons_self ..) y (List.mem_cons_of_mem _ hy) h h'))
    · cases e
  | remove h1 => simp only [setMeaning] at e; split at e <;> cases e; exact hb.filter _
  | clear => cases e; exact .nil
  | _ => cases e; exact hb

open Classical in
theorem dict_before {cfg : Cfg} {t u : Str} {l l' : List (Obj × Obj)} (hl : ∀ p ∈ l, Writable t p.1)
    (hb : l.Pairwise fun p q => Before p.1 q.1) {name r : Str} {args : List Str} {m : DictMsg} (h : DictSays t u name args m)
    (e : dictMeaning cfg l m = .gives l' r) : l'.Pairwise fun p q => Before p.1 q.1 := by
  cases h with
  | containsKey h1 => simp only [dictMeaning] at e; split at e <;> cases e; exact hb
  | getValueForKey h1 =>
    simp only [dictMeaning] at e; split at e <;> (try cases e)
    split at e <;> cases e <;> exact hb
  | @associate a v b o h1 h2 =>
    simp only [dictMeaning] at e
    split at e
    · rename_i hs
      split at e <;> cases e
      · rw [List.pairwise_map]
        refine hb.imp fun {x y} h => ?_
        have k : ∀ x : Obj × Obj, (if tied (less cfg.eps) o x.1 then (x.1, v) else x).1 = x.1 := by intro x; split <;> rfl
        rw [k, k]; exact h
      · have hw : ∀ x ∈ o :: l.map (·.1), Writable t x := by
          intro x hx; rcases List.mem_cons.1 hx with rfl | hx
          · exact ⟨b, h2⟩
          · obtain ⟨y, hy, rfl⟩ := List.mem_map.1 hx; exact hl y hy
        have mem : ∀ x ∈ l, x.1 ∈ o :: l.map (·.1) := fun x hx => List.mem_cons_of_mem _ (List.mem_map_of_mem (f := (·.1)) hx)
        have mo : o ∈ o :: l.map (·.1) := List.mem_cons_self ..
        exact pairwise_insert (R := fun p q : Obj × Obj => Before p.1 q.1) (o := (o, v)) hb
          (fun x hx h => less_before hs.1 hw (mem x hx) mo h)
          (fun x hx h => less_before hs.1 hw mo (mem x hx) h)
          (fun x hx y hy h h' => less_before hs.1 hw (mem x hx) (mem y hy) (hs.1.2.1 x.1 (mem x hx) o mo y.1 (mem y hy) h h'))
    · cases e
  | removeKey h1 => simp only [dictMeaning] at e; split at e <;> cases e; exact hb.filter _
  | clear => cases e; exact .nil
  | _ => cases e; exact hb

theorem behaves_proper {cfg : Cfg} {i i' : Inst} (hi : Proper i) (hw : WellTyped i') {name r : Str} {args : List Str}
    (h : Behaves cfg i name args (.gives i' r)) : Proper i' := by
  generalize hx : Result.gives i' r = x at h
  cases h with
  | vector h =>
    obtain ⟨w, e, rfl⟩ := map_gives hx.symm
    exact ⟨hi.1, vec_elems _ _ _ hi.2 _ _ _ h _ _ e fun a h1 o hd => ⟨a, hd⟩⟩
  | sort h1 h2 h3 => cases hx; exact ⟨hi.1, fun x hx => hi.2 x (h2.mem_iff.1 hx)⟩
  | sortUndefined h => cases hx
  | set h =>
    obtain ⟨w, e, rfl⟩ := map_gives hx.symm
    exact ⟨hi.1, set_elems hi.2.1 h e fun a h1 o hd => ⟨a, hd⟩, set_before hi.2.1 hi.2.2 h e⟩
  | dictionary h =>
    obtain ⟨w, e, rfl⟩ := map_gives hx.symm
    exact ⟨hi.1, hi.2.1, dict_elems hi.2.2.1 h e (fun a h1 o hd => ⟨a, hd⟩) (fun a h1 o hd => ⟨a, hd⟩),
      dict_before (fun p hp => (hi.2.2.1 p hp).1) hi.2.2.2 h e⟩
  | _ => obtain ⟨w, e, rfl⟩ := map_gives hx.symm; exact hw

theorem does_proper {pwd : Str} {c c' : Ctx} {s s' : Option Session} {text r : Str} (hc : Inv c)
    (hq : ∀ n i, c.vars.lookup n = some i → Proper i) (h : Does pwd c s text (.ret (c', s') r)) :
    ∀ n i, c'.vars.lookup n = some i → Proper i := by
  have filt : ∀ p : Str → Bool, ∀ n i, (c.vars.filter fun v => p v.1).lookup n = some i → Proper i := by
    intro p n i h
    rw [filter_lookup] at h
    split at h
    · exact hq n i h
    · cases h
  generalize hy : Run.ret (c', s') r = y at h
  cases h with
  | @created a n l v i hs _ hcr hl =>
    cases hy
    intro m j hj
    simp only [mapInsert_lookup _ _ _ hc.asc] at hj
    split at hj
    · cases hj
      cases hcr with
      | value _ _ _ hd =>
        have := (denotes_type hd).2
        cases hd <;> first | exact this | trivial
      | string => trivial
      | vector _ h _ => exact ⟨h, fun o ho => by cases ho⟩
      | set _ h _ => exact ⟨h, (fun o ho => by cases ho), .nil⟩
      | dictionary _ h _ _ h' _ => exact ⟨h, h', (fun o ho => by cases ho), .nil⟩
    · exact hq m j hj
  | kept => cases hy; exact hq
  | context hs h =>
    cases h <;> cases hy
    case context.delete.refl => rename_i n _ _; exact filt (fun v => !(v == n))
    case context.deleteOf.refl => rename_i n _; exact filt (fun v => !startsWith v (n ++ b!"::"))
    all_goals exact hq
  | @varGives a n l i ks i' r hs hv hl _ _ _ hb =>
    cases hy
    intro m j hj
    simp only [setVar, updateVar_lookup a i' c.vars (lookup_isSome_iff.1 ⟨i, hl⟩)] at hj
    split at hj
    · cases hj; exact behaves_proper (hq a i hl) (behaves_wellTyped _ _ _ (hc.wellTyped hl) _ _ _ hb) hb
    · exact hq m j hj
  | connection hs _ h => cases h <;> cases hy <;> exact hq
  | _ => cases hy

theorem reachable_proper [StdSort] {c : Ctx} (hc : Reachable c) : ∀ n i, c.vars.lookup n = some i → Proper i := by
  induction hc with
  | init => intro n i h; cases h
  | step hc h ih =>
    obtain ⟨x, rfl, hd | ⟨e, hd, rfl⟩⟩ := execute_done (reachable_inv hc) h
    · rw [record_vars]; exact does_proper (reachable_inv hc) ih hd
    · rw [(does_thr hd).1, record_vars]; exact ih

theorem reachable_properData [StdSort] {c : Ctx} (hc : Reachable c) : ProperData c.vars := by
  have hi := reachable_inv hc
  refine ⟨?_, fun v hv => ⟨(hi.vars v hv).1, reachable_proper hc v.1 v.2 (lookup_of_mem hi.asc hv)⟩⟩
  have h : c.vars.Pairwise fun v w => strLt v.1 w.1 = true := List.pairwise_map.1 hi.asc
  exact h.imp fun {v w} h => by rw [strLt_eq] at h; exact of_decide_eq_true h

/-! ### Proper data can be built -/

/-- The variable `n` has the value `i` in `c'`; otherwise it is `c`. -/
def Becomes (c c' : Ctx) (n : Str) (i : Inst) : Prop :=
  c'.cfg = c.cfg ∧ ∀ m, c'.vars.lookup m = if m = n then some i else c.vars.lookup m

theorem Becomes.trans {c c' c'' : Ctx} {n : Str} {i j : Inst} (h : Becomes c c' n i) (h' : Becomes c' c'' n j) : Becomes c c'' n j :=
  ⟨h'.1.trans h.1, fun m => by rw [h'.2 m, h.2 m]; split <;> rfl⟩

theorem Becomes.holds {c c' : Ctx} {n : Str} {i : Inst} (h : Becomes c c' n i) : Holds c' n i := by
  unfold Holds; rw [h.2, if_pos rfl]

theorem Becomes.of {c c' : Ctx} {n : Str} {i : Inst} (h : OnlyChanged c c' n i) : Becomes c c' n i := ⟨h.1, h.2.2⟩

section
variable [StdSort] {pwd : Str} {s : Option Session}

theorem fill {α : Type} {n : Str} {cfg : Cfg} (f : List α → Inst) (q : α → Str) (all : List α)
    (hstep : ∀ c l a r, all = l ++ a :: r → Reachable c → c.cfg = cfg → Holds c n (f l) →
      Answers pwd c s (q a) n (.gives (f (l ++ [a])) b!"null")) :
    ∀ l r c, all = l ++ r → Reachable c → c.cfg = cfg → Holds c n (f l) →
      ∃ c', Accepted pwd s c (r.map q) c' ∧ Becomes c c' n (f all) := by
  intro l r
  induction r generalizing l with
  | nil =>
    intro c e hc hcfg hn
    rw [List.append_nil] at e
    subst e
    exact ⟨c, .nil _, rfl, fun m => by
      split
      · rename_i h; rw [h]; exact hn
      · rfl⟩
  | cons a r ih =>
    intro c e hc hcfg hn
    obtain ⟨c1, h1, h2⟩ := hstep c l a r e hc hcfg hn
    have hb := Becomes.of h2
    obtain ⟨c2, h3, h4⟩ := ih (l ++ [a]) c1 (by rw [e]; simp) (.step hc h1) (hb.1.trans hcfg) hb.holds
    exact ⟨c2, .cons h1 h3, hb.trans h4⟩

theorem creates_becomes {c : Ctx} {text n : Str} {i : Inst} (hc : Reachable c) (h : CreationOf text n i) (hn : Absent c n) :
    ∃ c', Replies pwd c s text b!"null" c' ∧ Becomes c c' n i := by
  obtain ⟨c', h1, h2, h3, h4⟩ := C29_creation_adds_one_variable (pwd := pwd) (s := s) hc h hn
  refine ⟨c', h1, h2, fun m => ?_⟩
  split
  · rename_i e; rw [e]; exact h3
  · rename_i e
    exact Option.ext (h4 m e)

end

theorem literal_argument {t a : Str} {o : Obj} (h : Denotes t a o) : Argument a := by
  rcases denotes_literal h with ⟨_, h⟩ | ⟨_, h⟩ | ⟨_, h | h⟩ | ⟨_, h⟩ | ⟨_, h⟩
  · exact .inl (.inl h)
  · exact .inl (.inr (.inl h))
  · exact .inl (.inr (.inr (.inl h)))
  · exact .inl (.inr (.inr (.inr (.inl h))))
  · exact .inl (.inr (.inr (.inr (.inl h))))
  · exact .inl (.inr (.inr (.inr (.inr h))))

theorem token_of {t : Str} (h : isKeywordMessageToken t = true) : Token t := (isKeywordMessageToken_iff t).1 h

theorem one_statement {a tok x : Str} (ha : Actor a) (ht : isKeywordMessageToken tok = true) (hx : Argument x) :
    Statement (request a [(tok, x)]) a tok [x] := by
  have := request_statement (a := a) (ps := [(tok, x)]) ha (by simp) (fun p hp => by
    rw [List.mem_singleton.1 hp]; exact ⟨token_of ht, hx⟩)
  simpa using this

theorem two_statement {a tok tok' x x' : Str} (ha : Actor a) (ht : isKeywordMessageToken tok = true)
    (ht' : isKeywordMessageToken tok' = true) (hx : Argument x) (hx' : Argument x') :
    Statement (request a [(tok, x), (tok', x')]) a (tok ++ tok') [x, x'] := by
  have := request_statement (a := a) (ps := [(tok, x), (tok', x')]) ha (by simp) (fun p hp => by
    simp only [List.mem_cons, List.not_mem_nil, or_false] at hp
    rcases hp with rfl | rfl
    · exact ⟨token_of ht, hx⟩
    · exact ⟨token_of ht', hx'⟩)
  simpa using this

theorem variable_actor {n : Str} (h : Variable n) : Actor n := .inr (.inr (.inr h))
theorem type_actor {n : Str} (h : IsType n) : Actor n := .inr (.inr (.inl h))

theorem none_spaces : Spaces [] := fun b hb => by cases hb

theorem create_value {t n : Str} {o : Obj} (ht : ObjectType t) (hn : Variable n) (h : Denotes t (literal o) o) :
    CreationOf (createValue t n o) n (ofObj o) :=
  ⟨t, _, _, two_statement (type_actor (.inl ht)) (by decide +kernel) (by decide +kernel) (.inr (.inr hn)) (literal_argument h),
    .value ht (by decide) hn h⟩

theorem create_string {n : Str} (hn : Variable n) : CreationOf (request b!"String" [(b!"create:", n)]) n (.string []) :=
  ⟨_, _, _, one_statement (type_actor (.inl (by simp [ObjectType]))) (by decide +kernel) (.inr (.inr hn)), .string (by decide) hn⟩

theorem create_vector {t n : Str} (ht : ObjectType t) (hn : Variable n) :
    CreationOf (request (b!"Vector<" ++ (t ++ b!">")) [(b!"create:", n)]) n (.vector t []) :=
  ⟨_, _, _, one_statement (type_actor (.inr (.inl ⟨[], t, [], rfl, none_spaces, ht, none_spaces⟩))) (by decide +kernel) (.inr (.inr hn)),
    .vector (w := []) (w' := []) none_spaces ht none_spaces (by decide) hn⟩

theorem create_set {t n : Str} (ht : ObjectType t) (hn : Variable n) :
    CreationOf (request (b!"Set<" ++ (t ++ b!">")) [(b!"create:", n)]) n (.set t []) :=
  ⟨_, _, _, one_statement (type_actor (.inr (.inr (.inl ⟨[], t, [], rfl, none_spaces, ht, none_spaces⟩)))) (by decide +kernel) (.inr (.inr hn)),
    .set (w := []) (w' := []) none_spaces ht none_spaces (by decide) hn⟩

theorem create_dictionary {t u n : Str} (ht : ObjectType t) (hu : ObjectType u) (hn : Variable n) :
    CreationOf (request (b!"Dictionary<" ++ (t ++ (b!"," ++ (u ++ b!">")))) [(b!"create:", n)]) n (.dictionary t u []) :=
  ⟨_, _, _, one_statement (type_actor (.inr (.inr (.inr ⟨[], t, [], [], u, [], rfl, none_spaces, ht, none_spaces, none_spaces, hu, none_spaces⟩))))
      (by decide +kernel) (.inr (.inr hn)),
    .dictionary (w := []) (w' := []) (v := []) (v' := []) none_spaces ht none_spaces none_spaces hu none_spaces (by decide) hn⟩

/-! With tolerance zero the order of the program is the order of the values. -/

theorem before_less {z : Bool} {t : Str} {a b : Obj} (ha : Writable t a) (hb : Writable t b) :
    less (.fin z 0) a b = true ↔ Before a b := by
  by_cases ht : t = b!"Float"
  · subst ht
    obtain ⟨x, rfl, hx⟩ := hasType_float (writable_type ha)
    obtain ⟨y, rfl, hy⟩ := hasType_float (writable_type hb)
    show decide (below _ x y) = true ↔ Less x y
    rw [decide_eq_true_eq, below_zero x y z hx hy (by rintro rfl; exact writable_not_nan ha) (by rintro rfl; exact writable_not_nan hb),
      less_iff]
  · rw [before_natLt ht (writable_type ha), less_natLt _ t a b (writable_type ha) (writable_type hb) ht]

theorem swo_zero {z : Bool} {t : Str} {l : List Obj} (h : ∀ o ∈ l, Writable t o) : StrictWeakOrder (less (.fin z 0)) l := by
  by_cases ht : t = b!"Float"
  · subst ht
    exact C18_zero_tolerance_strict_weak z l (fun o ho => writable_type (h o ho)) (fun hn => writable_not_nan (h _ hn))
  · exact swo_nonfloat _ t ht l (fun o ho => writable_type (h o ho))

theorem searchable_zero {z : Bool} {t : Str} {l : List Obj} {k : Obj} (h : ∀ o ∈ l, Writable t o) (hk : Writable t k)
    (hb : l.Pairwise Before) : Searchable (less (.fin z 0)) l k := by
  refine ⟨swo_zero (t := t) fun o ho => ?_, hb.imp_of_mem fun {a b} ha hb h1 => (before_less (h a ha) (h b hb)).2 h1⟩
  rcases List.mem_cons.1 ho with rfl | ho
  · exact hk
  · exact h o ho

open Classical in
theorem set_append {z : Bool} {p : Int} {t : Str} {l : List Obj} {o : Obj} (h : ∀ x ∈ l ++ [o], Writable t x)
    (hb : (l ++ [o]).Pairwise Before) : setMeaning ⟨p, .fin z 0⟩ l (.add o) = .gives (l ++ [o]) b!"null" := by
  have ho := h o (by simp)
  have hl : ∀ x ∈ l, Writable t x := fun x hx => h x (by simp [hx])
  have hs := searchable_zero (z := z) hl ho (List.pairwise_append.1 hb).1
  have hlt : ∀ x ∈ l, less (.fin z 0) x o = true := fun x hx =>
    (before_less (hl x hx) ho).2 ((List.pairwise_append.1 hb).2.2 x hx o (by simp))
  have hnot : ∀ x ∈ l, less (.fin z 0) o x = false := fun x hx => by
    cases e : less (.fin z 0) o x
    · rfl
    · have := hs.1.2.1 o (by simp) x (by simp [hx]) o (by simp) e (hlt x hx)
      exact absurd this (hs.1.1 o (by simp))
  simp only [setMeaning]
  rw [if_pos hs, if_neg, List.filter_eq_self.2 hlt, List.filter_eq_nil_iff.2 (fun x hx => by rw [hnot x hx]; decide)]
  rintro ⟨x, hx, h⟩
  simp [tied, hlt x hx] at h

open Classical in
theorem dict_append {z : Bool} {p : Int} {t : Str} {l : List (Obj × Obj)} {o v : Obj} (h : ∀ x ∈ l ++ [(o, v)], Writable t x.1)
    (hb : (l ++ [(o, v)]).Pairwise fun p q => Before p.1 q.1) :
    dictMeaning ⟨p, .fin z 0⟩ l (.associate v o) = .gives (l ++ [(o, v)]) b!"null" := by
  have ho : Writable t o := h (o, v) (by simp)
  have hl : ∀ x ∈ l, Writable t x.1 := fun x hx => h x (by simp [hx])
  have hl' : ∀ x ∈ l.map (·.1), Writable t x := fun x hx => by
    obtain ⟨y, hy, rfl⟩ := List.mem_map.1 hx; exact hl y hy
  have hs := searchable_zero (z := z) hl' ho (List.pairwise_map.2 (List.pairwise_append.1 hb).1)
  have hlt : ∀ x ∈ l, less (.fin z 0) x.1 o = true := fun x hx =>
    (before_less (hl x hx) ho).2 ((List.pairwise_append.1 hb).2.2 x hx (o, v) (by simp))
  have hnot : ∀ x ∈ l, less (.fin z 0) o x.1 = false := fun x hx => by
    cases e : less (.fin z 0) o x.1
    · rfl
    · have := hs.1.2.1 o (by simp) x.1 (List.mem_cons_of_mem _ (List.mem_map_of_mem (f := (·.1)) hx)) o (by simp) e (hlt x hx)
      exact absurd this (hs.1.1 o (by simp))
  simp only [dictMeaning]
  rw [if_pos hs, if_neg, List.filter_eq_self.2 hlt, List.filter_eq_nil_iff.2 (fun x hx => by rw [hnot x hx]; decide)]
  rintro ⟨x, hx, h⟩
  simp [tied, hlt x hx] at h

section
variable [StdSort] {pwd : Str} {s : Option Session}

theorem inf_times_zero : (Fl.mul f64 (.inf false) (atof b!"0")).toF32 = .nan := by kernel_rfl

theorem rebuild_one {c : Ctx} {n : Str} {i : Inst} {z : Bool} (hc : Reachable c) (hz : c.cfg.eps = .fin z 0) (hv : Variable n)
    (hn : Absent c n) (hi : Proper i) : ∃ c', Accepted pwd s c (rebuild n i) c' ∧ Becomes c c' n i := by
  have one : ∀ {t : Str} {o : Obj}, ObjectType t → Denotes t (literal o) o →
      ∃ c', Accepted pwd s c [createValue t n o] c' ∧ Becomes c c' n (ofObj o) := by
    intro t o ht ho
    obtain ⟨c', h1, h2⟩ := creates_becomes (pwd := pwd) (s := s) hc (create_value ht hv ho) hn
    exact ⟨c', .one h1, h2⟩
  have hcfg : ∀ c' : Ctx, c'.cfg = c.cfg → c'.cfg = ⟨c.cfg.prec, .fin z 0⟩ := fun c' h => by rw [h, ← hz]
  cases i with
  | boolean v => exact one (t := b!"Boolean") (o := .boolean v) (by simp [ObjectType]) (denotes_of_type ⟨rfl, trivial⟩ nofun nofun)
  | character v => exact one (t := b!"Character") (o := .character v) (by simp [ObjectType]) (denotes_of_type ⟨rfl, trivial⟩ nofun nofun)
  | integer v => exact one (t := b!"Integer") (o := .integer v) (by simp [ObjectType]) (denotes_of_type ⟨rfl, hi⟩ nofun nofun)
  | float v =>
    cases v with
    | nan =>
      obtain ⟨c1, h1, h2⟩ := one (t := b!"Float") (o := .float (.inf false)) (by simp [ObjectType]) (float_literal rfl nofun)
      have r1 := h1.reachable hc
      have hf : FloatValue b!"0" := (isFloatValue_iff _).1 (by decide +kernel)
      obtain ⟨c2, h3, h4⟩ := answers_flt (pwd := pwd) (s := s) (text := request n [(b!"multiplyBy:", b!"0")]) r1
        (v := .inf false) h2.holds (one_statement (variable_actor hv) (by decide +kernel) (.inl (.inr (.inr (.inr (.inl hf)))))) (.multiplyBy hf)
      have hb := Becomes.of h4
      rw [inf_times_zero] at hb
      exact ⟨c2, h1.append (.one h3), h2.trans hb⟩
    | inf b => exact one (t := b!"Float") (o := .float (.inf b)) (by simp [ObjectType]) (float_literal hi nofun)
    | fin b k => exact one (t := b!"Float") (o := .float (.fin b k)) (by simp [ObjectType]) (float_literal hi nofun)
  | string v =>
    obtain ⟨c1, h1, h2⟩ := creates_becomes (pwd := pwd) (s := s) hc (create_string hv) hn
    obtain ⟨c2, h3, h4⟩ := fill (pwd := pwd) (s := s) (n := n) (cfg := c.cfg) Inst.string (fun b => request n [(b!"pushBack:", [c!"'", b, c!"'"])]) v
      (fun c l a r _ hc _ hl => answers_str hc hl
        (one_statement (tok := b!"pushBack:") (variable_actor hv) (by decide +kernel) (literal_argument (.character a))) (.pushBack (c := a)))
      [] v c1 rfl (.step hc h1) h2.1 h2.holds
    exact ⟨c2, .cons h1 h3, h2.trans h4⟩
  | vector t l =>
    obtain ⟨c1, h1, h2⟩ := creates_becomes (pwd := pwd) (s := s) hc (create_vector hi.1 hv) hn
    obtain ⟨c2, h3, h4⟩ := fill (pwd := pwd) (s := s) (n := n) (cfg := c.cfg) (Inst.vector t) (fun o => request n [(b!"pushBack:", literal o)]) l
      (fun c l' a r e hc _ hl => by
        have hd := denotes_of_writable (hi.2 a (by rw [e]; simp))
        exact answers_vec hc hl (one_statement (variable_actor hv) (by decide +kernel) (literal_argument hd)) (.pushBack hd))
      [] l c1 rfl (.step hc h1) h2.1 h2.holds
    exact ⟨c2, .cons h1 h3, h2.trans h4⟩
  | set t l =>
    obtain ⟨c1, h1, h2⟩ := creates_becomes (pwd := pwd) (s := s) hc (create_set hi.1 hv) hn
    obtain ⟨c2, h3, h4⟩ := fill (pwd := pwd) (s := s) (n := n) (cfg := c.cfg) (Inst.set t) (fun o => request n [(b!"add:", literal o)]) l
      (fun c' l' a r e hc hcf hl => by
        have hd := denotes_of_writable (hi.2.1 a (by rw [e]; simp))
        have h := answers_set (pwd := pwd) (s := s) hc hl
          (one_statement (variable_actor hv) (by decide +kernel) (literal_argument hd)) (.add hd)
        rw [hcfg c' hcf, set_append (t := t) (fun x hx => hi.2.1 x (by rw [e]; simp at hx ⊢; tauto))
          (hi.2.2.sublist (by rw [e]; simp))] at h
        exact h)
      [] l c1 rfl (.step hc h1) h2.1 h2.holds
    exact ⟨c2, .cons h1 h3, h2.trans h4⟩
  | dictionary t u l =>
    obtain ⟨c1, h1, h2⟩ := creates_becomes (pwd := pwd) (s := s) hc (create_dictionary hi.1 hi.2.1 hv) hn
    obtain ⟨c2, h3, h4⟩ := fill (pwd := pwd) (s := s) (n := n) (cfg := c.cfg) (Inst.dictionary t u)
      (fun p => request n [(b!"associateValue:", literal p.2), (b!"withKey:", literal p.1)]) l
      (fun c' l' a r e hc hcf hl => by
        obtain ⟨hk, hw⟩ := hi.2.2.1 a (by rw [e]; simp)
        have hd := denotes_of_writable hk
        have hd' := denotes_of_writable hw
        have h := answers_dict (pwd := pwd) (s := s) hc hl
          (two_statement (tok := b!"associateValue:") (tok' := b!"withKey:") (variable_actor hv) (by decide +kernel) (by decide +kernel) (literal_argument hd') (literal_argument hd))
          (.associate hd' hd)
        rw [hcfg c' hcf, dict_append (t := t) (fun x hx => (hi.2.2.1 x (by rw [e]; simp at hx ⊢; tauto)).1)
          (hi.2.2.2.sublist (by rw [e]; simp))] at h
        exact h)
      [] l c1 rfl (.step hc h1) h2.1 h2.holds
    exact ⟨c2, .cons h1 h3, h2.trans h4⟩

theorem rebuild_all {l : List (Str × Inst)} : ∀ {c : Ctx} {z : Bool}, Reachable c → c.cfg.eps = .fin z 0 → ProperData l →
    (∀ v ∈ l, Absent c v.1) → ∃ c', Accepted pwd s c (rebuildAll l) c' ∧ c'.cfg = c.cfg ∧
      ∀ m, c'.vars.lookup m = (l.lookup m).or (c.vars.lookup m) := by
  induction l with
  | nil => intro c z hc hz hl hn; exact ⟨c, .nil _, rfl, fun m => rfl⟩
  | cons v l ih =>
    intro c z hc hz hl hn
    obtain ⟨h1, h2⟩ := List.pairwise_cons.1 hl.1
    obtain ⟨hv, hp⟩ := hl.2 v (by simp)
    obtain ⟨c1, a1, b1⟩ := rebuild_one (pwd := pwd) (s := s) hc hz hv (hn v (by simp)) hp
    obtain ⟨c2, a2, b2, b3⟩ := ih (a1.reachable hc) (by rw [b1.1]; exact hz) ⟨h2, fun w hw => hl.2 w (by simp [hw])⟩ (fun w hw => by
      have := h1 w hw
      have hne : w.1 ≠ v.1 := fun e => by rw [e] at this; exact absurd this (List.lt_irrefl _)
      have := hn w (by simp [hw])
      unfold Absent at this ⊢
      rw [b1.2, if_neg hne]; exact this)
    refine ⟨c2, by rw [rebuildAll, List.flatMap_cons]; exact a1.append a2, b2.trans b1.1, fun m => ?_⟩
    rw [b3, b1.2]
    obtain ⟨n, i⟩ := v
    by_cases e : m = n
    · subst e
      rw [if_pos rfl, List.lookup_cons_self]
      have : l.lookup m = none := by
        cases hx : l.lookup m with
        | none => rfl
        | some j => exact absurd (h1 _ (lookup_some_mem hx)) (List.lt_irrefl _)
      rw [this]; rfl
    · rw [if_neg e, List.lookup_cons, show (m == n) = false from by simpa using e]

theorem properData_asc {l : List (Str × Inst)} (h : ProperData l) : Asc strLt (l.map (·.1)) :=
  List.pairwise_map.2 (h.1.imp fun {v w} h => by rw [strLt_eq]; exact decide_eq_true h)

theorem rebuild_vars {l : List (Str × Inst)} {c : Ctx} {z : Bool} (hc : Reachable c) (hz : c.cfg.eps = .fin z 0) (h0 : c.vars = [])
    (hl : ProperData l) : ∃ c', Accepted pwd s c (rebuildAll l) c' ∧ c'.cfg = c.cfg ∧ c'.vars = l := by
  obtain ⟨c', h1, h2, h3⟩ := rebuild_all (pwd := pwd) (s := s) hc hz hl (fun v _ => by unfold Absent; rw [h0]; rfl)
  refine ⟨c', h1, h2, vars_ext _ _ (reachable_inv (h1.reachable hc)).asc (properData_asc hl) fun n => ?_⟩
  rw [h3, h0]
  cases l.lookup n <;> rfl

end

end Knuckle

import Verif.Proofs.HeapLoops

namespace Knuckle.Heap

/-! ### Ordered containers -/

theorem locate_parts {α : Type} (B A : α → Bool) : ∀ s : List α,
    s = (locate B A s).1 ++ ((locate B A s).2.1.toList ++ (locate B A s).2.2)
  | [] => rfl
  | x :: xs => by
    unfold locate
    by_cases hb : B x = true
    · rw [if_pos hb]
      simp only [List.cons_append, List.cons.injEq, true_and]
      exact locate_parts B A xs
    · rw [if_neg hb]
      by_cases ha : A x = true
      · rw [if_pos ha]; rfl
      · rw [if_neg ha]; rfl

theorem locate_reads {ε τ : Type} [Entry ε τ] {m : Mem} {B A : ε → Bool} {B' A' : τ → Bool}
    (hp : ∀ e t, Entry.see m e = some t → B e = B' t ∧ A e = A' t) : ∀ {s : List ε} {l : List τ}, Reads m s l →
    Reads m (locate B A s).1 (locate B' A' l).1 ∧ Reads m (locate B A s).2.1.toList (locate B' A' l).2.1.toList ∧
      Reads m (locate B A s).2.2 (locate B' A' l).2.2
  | [], l, h => by
    have : l = [] := List.eq_nil_of_length_eq_zero (reads_length h).symm
    subst this; exact ⟨reads_nil, reads_nil, reads_nil⟩
  | x :: xs, l, h => by
    obtain ⟨t, l, rfl, ht, hr⟩ := reads_cons_inv h
    obtain ⟨h1, h2⟩ := hp x t ht
    have ih := locate_reads hp hr
    unfold locate
    rw [← h1, ← h2]
    by_cases hb : B x = true
    · rw [if_pos hb, if_pos hb]
      exact ⟨reads_cons ht ih.1, ih.2⟩
    · rw [if_neg hb, if_neg hb]
      by_cases ha : A x = true
      · rw [if_pos ha, if_pos ha]
        exact ⟨reads_nil, reads_nil, h⟩
      · rw [if_neg ha, if_neg ha]
        exact ⟨reads_nil, reads_cons ht reads_nil, hr⟩

theorem setFind_locate {κ : Type} (lt : κ → κ → Bool) (k : κ) : ∀ l : List κ,
    setFind lt k l = (locate (fun x => lt x k) (fun x => lt k x) l).2.1.isSome
  | [] => rfl
  | x :: xs => by
    unfold setFind locate
    by_cases hb : lt x k = true
    · rw [if_pos hb, if_pos hb]; exact setFind_locate lt k xs
    · rw [if_neg hb, if_neg hb]
      by_cases ha : lt k x = true
      · rw [if_pos ha, if_pos ha]; rfl
      · rw [if_neg ha, if_neg ha]; rfl

theorem setInsert_none {κ : Type} (lt : κ → κ → Bool) (k : κ) : ∀ l : List κ,
    (locate (fun x => lt x k) (fun x => lt k x) l).2.1 = none →
    setInsert lt k l = (locate (fun x => lt x k) (fun x => lt k x) l).1 ++ k :: (locate (fun x => lt x k) (fun x => lt k x) l).2.2
  | [], _ => rfl
  | x :: xs, h => by
    unfold locate at h ⊢
    unfold setInsert
    by_cases hb : lt x k = true
    · rw [if_pos hb] at h ⊢
      rw [if_pos hb, setInsert_none lt k xs h]; rfl
    · rw [if_neg hb] at h ⊢
      rw [if_neg hb]
      by_cases ha : lt k x = true
      · rw [if_pos ha, if_pos ha]; rfl
      · rw [if_neg ha] at h; cases h

theorem setInsert_some {κ : Type} (lt : κ → κ → Bool) (k : κ) : ∀ (l : List κ) {q : κ},
    (locate (fun x => lt x k) (fun x => lt k x) l).2.1 = some q → setInsert lt k l = l
  | [], _, h => by cases h
  | x :: xs, q, h => by
    unfold locate at h
    unfold setInsert
    by_cases hb : lt x k = true
    · rw [if_pos hb] at h ⊢
      rw [setInsert_some lt k xs h]
    · rw [if_neg hb] at h ⊢
      by_cases ha : lt k x = true
      · rw [if_pos ha] at h; cases h
      · rw [if_neg ha]

theorem setErase_locate {κ : Type} (lt : κ → κ → Bool) (k : κ) : ∀ l : List κ,
    setErase lt k l = (locate (fun x => lt x k) (fun x => lt k x) l).1 ++ (locate (fun x => lt x k) (fun x => lt k x) l).2.2
  | [] => rfl
  | x :: xs => by
    unfold setErase locate
    by_cases hb : lt x k = true
    · rw [if_pos hb, if_pos hb, setErase_locate lt k xs]; rfl
    · rw [if_neg hb, if_neg hb]
      by_cases ha : lt k x = true
      · rw [if_pos ha, if_pos ha]; rfl
      · rw [if_neg ha, if_neg ha]; rfl

theorem mapFind_locate {κ α : Type} (lt : κ → κ → Bool) (k : κ) : ∀ l : List (κ × α),
    mapFind lt k l = (locate (fun x => lt x.1 k) (fun x => lt k x.1) l).2.1.map (·.2)
  | [] => rfl
  | x :: xs => by
    unfold mapFind locate
    by_cases hb : lt x.1 k = true
    · rw [if_pos hb, if_pos hb]; exact mapFind_locate lt k xs
    · rw [if_neg hb, if_neg hb]
      by_cases ha : lt k x.1 = true
      · rw [if_pos ha, if_pos ha]; rfl
      · rw [if_neg ha, if_neg ha]; rfl

theorem mapErase_locate {κ α : Type} (lt : κ → κ → Bool) (k : κ) : ∀ l : List (κ × α),
    mapErase lt k l = (locate (fun x => lt x.1 k) (fun x => lt k x.1) l).1 ++ (locate (fun x => lt x.1 k) (fun x => lt k x.1) l).2.2
  | [] => rfl
  | x :: xs => by
    unfold mapErase locate
    by_cases hb : lt x.1 k = true
    · rw [if_pos hb, if_pos hb, mapErase_locate lt k xs]; rfl
    · rw [if_neg hb, if_neg hb]
      by_cases ha : lt k x.1 = true
      · rw [if_pos ha, if_pos ha]; rfl
      · rw [if_neg ha, if_neg ha]; rfl

theorem mapInsert_none {κ α : Type} (lt : κ → κ → Bool) (k : κ) (v : α) : ∀ l : List (κ × α),
    (locate (fun x => lt x.1 k) (fun x => lt k x.1) l).2.1 = none →
    mapInsert lt k v l = (locate (fun x => lt x.1 k) (fun x => lt k x.1) l).1 ++ (k, v) ::
      (locate (fun x => lt x.1 k) (fun x => lt k x.1) l).2.2
  | [], _ => rfl
  | x :: xs, h => by
    unfold locate at h ⊢
    unfold mapInsert
    by_cases hb : lt x.1 k = true
    · rw [if_pos hb] at h ⊢
      rw [if_pos hb, mapInsert_none lt k v xs h]; rfl
    · rw [if_neg hb] at h ⊢
      rw [if_neg hb]
      by_cases ha : lt k x.1 = true
      · rw [if_pos ha, if_pos ha]; rfl
      · rw [if_neg ha] at h; cases h

theorem mapInsert_some {κ α : Type} (lt : κ → κ → Bool) (k : κ) (v : α) : ∀ (l : List (κ × α)) {q : κ × α},
    (locate (fun x => lt x.1 k) (fun x => lt k x.1) l).2.1 = some q →
    mapInsert lt k v l = (locate (fun x => lt x.1 k) (fun x => lt k x.1) l).1 ++ (q.1, v) ::
      (locate (fun x => lt x.1 k) (fun x => lt k x.1) l).2.2
  | [], _, h => by cases h
  | x :: xs, q, h => by
    unfold locate at h ⊢
    unfold mapInsert
    by_cases hb : lt x.1 k = true
    · rw [if_pos hb] at h ⊢
      rw [if_pos hb, mapInsert_some lt k v xs h]; rfl
    · rw [if_neg hb] at h ⊢
      rw [if_neg hb]
      by_cases ha : lt k x.1 = true
      · rw [if_pos ha] at h; cases h
      · rw [if_neg ha] at h ⊢
        rw [if_neg ha]
        cases h; rfl

/-- The search of the heap model. -/
theorem find_eq {σ α : Type} {m : Mem} {key : α → Addr} {p : Addr} {k : Obj} {s : List α} {ks : List Obj} (hp : m.obj p = some k)
    (hr : Reads m (s.map key) ks) (eps : Fl) (st : σ) :
    (find eps key p s : M σ _) st m = (lift (orderGuard eps ks k) >>= fun _ =>
      pure (locate (fun x => ptrLt eps m (key x) p) (fun x => ptrLt eps m p (key x)) s)) st m := by
  unfold find
  rw [ok_bind (deref_ok hp st), ok_bind (derefAll_ok hr st)]
  change M.bind _ _ st m = M.bind _ _ st m
  unfold M.bind lift
  rcases orderGuard eps ks k <;> rfl

theorem ptrLt_eq {m : Mem} {p q : Addr} {a b : Obj} (hp : m.obj p = some a) (hq : m.obj q = some b) (eps : Fl) :
    ptrLt eps m p q = ltB eps a b := by
  unfold ptrLt; rw [hp, hq]

/-- A search, and then what the operator does with the place it found. -/
theorem sim_find {ε τ : Type} [Entry ε τ] {L F : List Addr} {m : Mem} {s : List ε} {l : List τ} (h : State L F m s l)
    {key : ε → Addr} {keyv : τ → Obj} (hk : ∀ e t, Entry.see m e = some t → m.obj (key e) = some (keyv t))
    {p : Addr} {k : Obj} (hp : m.obj p = some k) (eps : Fl) {f : List ε × Option ε × List ε → M (List ε) Str} {r : Run (List τ)}
    (hf : ∀ b o a b' o' a', s = b ++ (o.toList ++ a) → l = b' ++ (o'.toList ++ a') → Reads m b b' → Reads m o.toList o'.toList →
      Reads m a a' → (b', o', a') = locate (fun t => ltB eps (keyv t) k) (fun t => ltB eps k (keyv t)) l →
      Sim L F m (f (b, o, a) s m) r) :
    Sim L F m ((find eps key p s >>= f) s m) (thenRun l (orderGuard eps (l.map keyv) k) fun _ => r) := by
  have hr : Reads m (s.map key) (l.map keyv) := by
    have := h.reads
    clear h hf
    induction s generalizing l with
    | nil =>
      have : l = [] := List.eq_nil_of_length_eq_zero (reads_length this).symm
      subst this; exact reads_nil
    | cons x xs ih =>
      obtain ⟨t, l, rfl, ht, hr⟩ := reads_cons_inv this
      exact reads_cons (hk x t ht) (ih hr)
  rw [bind_apply]; unfold M.bind
  rw [find_eq hp hr eps s, lift_bind]
  unfold thenRun
  rcases orderGuard eps (l.map keyv) k with _ | e | _
  · simp only [pure_apply]
    have hl := locate_reads (m := m) (B := fun x => ptrLt eps m (key x) p) (A := fun x => ptrLt eps m p (key x))
      (B' := fun t => ltB eps (keyv t) k) (A' := fun t => ltB eps k (keyv t))
      (fun e t ht => ⟨ptrLt_eq (hk e t ht) hp eps, ptrLt_eq hp (hk e t ht) eps⟩) h.reads
    exact hf _ _ _ _ _ _ (locate_parts _ _ s) (locate_parts _ _ l) hl.1 hl.2.1 hl.2.2 rfl
  · exact sim_err h e
  · trivial

theorem reads_option {ε τ : Type} [Entry ε τ] {m : Mem} {o : Option ε} {o' : Option τ} (h : Reads m o.toList o'.toList) :
    (o = none ∧ o' = none) ∨ ∃ e t, o = some e ∧ o' = some t ∧ Entry.see m e = some t := by
  rcases o with _ | e
  · rcases o' with _ | t
    · exact .inl ⟨rfl, rfl⟩
    · have := reads_length h; simp at this
  · rcases o' with _ | t
    · have := reads_length h; simp at this
    · exact .inr ⟨e, t, rfl, rfl, by simpa [Reads] using h⟩

section
variable {L F : List Addr} {m : Mem} {s : List Addr} {l : List Obj}

theorem setGet_sim (h : State L F m s l) (cfg : Cfg) (args : List Str) :
    Sim L F m (setGet cfg args s m) (op0 l (.ok (l, setRepr cfg.prec l)) args) := by
  refine sim_arg0 h ?_ args
  rw [value_bind, ok_bind (derefAll_ok h.reads s)]
  exact sim_ok h _

theorem setIsEmpty_sim (h : State L F m s l) (args : List Str) :
    Sim L F m (setIsEmpty args s m) (op0 l (.ok (l, boolStr l.isEmpty)) args) := by
  refine sim_arg0 h ?_ args
  have e : s.isEmpty = l.isEmpty := by
    have := reads_length h.reads
    rcases s with _ | ⟨x, s⟩ <;> rcases l with _ | ⟨y, l⟩ <;> simp at this ⊢
  rw [value_bind, e]
  exact sim_ok h _

theorem id_map (l : List Obj) : l.map (fun x : Obj => x) = l := List.map_id _

theorem setContains_sim (h : State L F m s l) (cfg : Cfg) (et : Str) (args : List Str) :
    Sim L F m (setContains cfg et args s m) (op1 l (fun a => do
      let o ← getSharedInstance et a
      orderGuard cfg.eps l o
      .ok (l, boolStr (setFind (ltB cfg.eps) o l))) args) := by
  refine sim_arg1 h (fun a => ?_) args
  rw [run_bind]
  refine sim_shared h fun o p m1 _ st hn ho hs => ?_
  rw [value_bind, run_bind]
  have := sim_find st (key := id) (keyv := fun x => x) (fun e t ht => ht) ho cfg.eps
    (f := fun r => pure (boolStr r.2.1.isSome)) (r := .ret l (boolStr (setFind (ltB cfg.eps) o l))) ?_
  · rw [id_map] at this; exact this
  · intro b q a b' q' a' e e' hb hq ha he
    rw [setFind_locate, ← he]
    rcases reads_option hq with ⟨rfl, rfl⟩ | ⟨x, t, rfl, rfl, hx⟩
    · exact sim_ok st _
    · exact sim_ok st _

theorem setAdd_sim (h : State L F m s l) (cfg : Cfg) (et : Str) (args : List Str) :
    Sim L F m (setAdd cfg et args s m) (op1 l (fun a => do
      let o ← getSharedInstance et a
      orderGuard cfg.eps l o
      .ok (setInsert (ltB cfg.eps) o l, b!"null")) args) := by
  refine sim_arg1 h (fun a => ?_) args
  rw [run_bind]
  refine sim_shared h fun o p m1 _ st hn ho hs => ?_
  rw [value_bind, run_bind]
  have := sim_find st (key := id) (keyv := fun x => x) (fun e t ht => ht) ho cfg.eps
    (f := fun r => match r.2.1 with
      | some _ => pure b!"null"
      | none => do
        copy p
        assign (r.1 ++ p :: r.2.2)
        pure b!"null") (r := .ret (setInsert (ltB cfg.eps) o l) b!"null") ?_
  · rw [id_map] at this; exact this
  · intro b q a b' q' a' e e' hb hq ha he
    rcases reads_option hq with ⟨rfl, rfl⟩ | ⟨x, t, rfl, rfl, hx⟩
    · rw [setInsert_none (ltB cfg.eps) o l (by rw [← he]), ← he]
      obtain ⟨m2, e2, st2, s2⟩ := grow (s' := b ++ p :: a) (l' := b' ++ o :: a') st hn
        (by intro c; rw [e]; simp only [held_addr, Option.toList, List.nil_append, List.count_append, List.count_cons]; omega)
        (reads_append hb (reads_cons ho ha))
      simp only
      rw [ok_bind (copy_ok e2 s), assign_bind]
      exact sim_all (sim_ok st2 _) s2
    · rw [setInsert_some (ltB cfg.eps) o l (by rw [← he])]
      exact sim_ok st _

theorem setRemove_sim (h : State L F m s l) (cfg : Cfg) (et : Str) (args : List Str) :
    Sim L F m (setRemove cfg et args s m) (op1 l (fun a => do
      let o ← getSharedInstance et a
      orderGuard cfg.eps l o
      .ok (setErase (ltB cfg.eps) o l, b!"null")) args) := by
  refine sim_arg1 h (fun a => ?_) args
  rw [run_bind]
  refine sim_shared h fun o p m1 _ st hn ho hs => ?_
  rw [value_bind, run_bind]
  have := sim_find st (key := id) (keyv := fun x => x) (fun e t ht => ht) ho cfg.eps
    (f := fun r => match r.2.1 with
      | some q => do
        assign (r.1 ++ r.2.2)
        dropAll [q]
        pure b!"null"
      | none => pure b!"null") (r := .ret (setErase (ltB cfg.eps) o l) b!"null") ?_
  · rw [id_map] at this; exact this
  · intro b q a b' q' a' e e' hb hq ha he
    rw [setErase_locate, ← he]
    rcases reads_option hq with ⟨rfl, rfl⟩ | ⟨x, t, rfl, rfl, hx⟩
    · have e1 : b' ++ a' = l := e'.symm
      simp only
      rw [e1]
      exact sim_ok st _
    · obtain ⟨m2, e2, st2, s2⟩ := shrink (s' := b ++ a) (l' := b' ++ a') (D := [x]) st
        (by intro c; rw [e]; simp only [held_addr, Option.toList, List.count_append, List.count_cons, List.count_nil]; omega)
        (reads_append hb ha)
      simp only
      rw [assign_bind, ok_bind (dropAll_ok e2 _)]
      exact ⟨rfl, st2, s2.mono (by intro a ha; simp at ha ⊢; tauto)⟩

theorem set_sim (h : State L F m s l) (cfg : Cfg) (et name : Str) (args : List Str) :
    Sim L F m (dispatch (setTable cfg et) name args s m) (Knuckle.dispatch l (Knuckle.setTable cfg et l) name args) := by
  refine sim_dispatch h name args ?_
  unfold setTable Knuckle.setTable
  exact .cons ⟨rfl, setGet_sim h ..⟩ <| .cons ⟨rfl, setIsEmpty_sim h ..⟩ <| .cons ⟨rfl, setContains_sim h ..⟩ <|
    .cons ⟨rfl, listSize_sim h ..⟩ <| .cons ⟨rfl, setAdd_sim h ..⟩ <| .cons ⟨rfl, setRemove_sim h ..⟩ <|
    .cons ⟨rfl, listClear_sim h ..⟩ .nil

end

/-! ### Dictionaries -/

theorem see_pair {m : Mem} {e : Addr × Addr} {t : Obj × Obj} (h : Entry.see m e = some t) :
    m.obj e.1 = some t.1 ∧ m.obj e.2 = some t.2 := by
  change seePair m e = some t at h
  unfold seePair at h
  rcases h1 : m.obj e.1 with _ | a
  · rw [h1] at h; cases h
  · rcases h2 : m.obj e.2 with _ | b
    · rw [h1, h2] at h; cases h
    · rw [h1, h2] at h; cases h; exact ⟨rfl, rfl⟩

theorem pair_see {m : Mem} {e : Addr × Addr} {t : Obj × Obj} (h1 : m.obj e.1 = some t.1) (h2 : m.obj e.2 = some t.2) :
    Entry.see m e = some t := by
  change seePair m e = some t
  unfold seePair; rw [h1, h2]

theorem reads_fst {m : Mem} : ∀ {s : List (Addr × Addr)} {l : List (Obj × Obj)}, Reads m s l → Reads m (s.map (·.1)) (l.map (·.1))
  | [], l, h => by
    have : l = [] := List.eq_nil_of_length_eq_zero (reads_length h).symm
    subst this; exact reads_nil
  | x :: xs, l, h => by
    obtain ⟨t, l, rfl, ht, hr⟩ := reads_cons_inv h
    exact reads_cons (see_pair ht).1 (reads_fst hr)

theorem reads_snd {m : Mem} : ∀ {s : List (Addr × Addr)} {l : List (Obj × Obj)}, Reads m s l → Reads m (s.map (·.2)) (l.map (·.2))
  | [], l, h => by
    have : l = [] := List.eq_nil_of_length_eq_zero (reads_length h).symm
    subst this; exact reads_nil
  | x :: xs, l, h => by
    obtain ⟨t, l, rfl, ht, hr⟩ := reads_cons_inv h
    exact reads_cons (see_pair ht).2 (reads_snd hr)

theorem held_pairs (s : List (Addr × Addr)) : held s = pairPtrs s := rfl

theorem ptr_pair (e : Addr × Addr) : Entry.ptr e = [e.1, e.2] := rfl

theorem zip_fst_snd {α β : Type} : ∀ l : List (α × β), (l.map (·.1)).zip (l.map (·.2)) = l
  | [] => rfl
  | x :: xs => by simp [zip_fst_snd xs]

section
variable {L F : List Addr} {m : Mem} {s : List (Addr × Addr)} {l : List (Obj × Obj)}

theorem dictText_sim (h : State L F m s l) (cfg : Cfg) (args : List Str) :
    Sim L F m (dictText cfg args s m) (op0 l (.ok (l, dictRepr cfg.prec l)) args) := by
  refine sim_arg0 h ?_ args
  rw [value_bind, ok_bind (derefAll_ok (reads_fst h.reads) s), ok_bind (derefAll_ok (reads_snd h.reads) s), zip_fst_snd]
  exact sim_ok h _

theorem dictIsEmpty_sim (h : State L F m s l) (args : List Str) :
    Sim L F m (dictIsEmpty args s m) (op0 l (.ok (l, boolStr l.isEmpty)) args) := by
  refine sim_arg0 h ?_ args
  have e : s.isEmpty = l.isEmpty := by
    have := reads_length h.reads
    rcases s with _ | ⟨x, s⟩ <;> rcases l with _ | ⟨y, l⟩ <;> simp at this ⊢
  rw [value_bind, e]
  exact sim_ok h _

theorem dictSize_sim (h : State L F m s l) (args : List Str) :
    Sim L F m (dictSize args s m) (op0 l (.ok (l, intStr l.length)) args) := by
  refine sim_arg0 h ?_ args
  rw [value_bind, reads_length h.reads]
  exact sim_ok h _

theorem dictKeys_sim (h : State L F m s l) (cfg : Cfg) (args : List Str) :
    Sim L F m (dictKeys cfg args s m) (op0 l (.ok (l, vectorRepr cfg.prec (l.map (·.1)))) args) := by
  refine sim_arg0 h ?_ args
  rw [value_bind]
  refine temporary_sim h (fun p hp => ?_) (reads_fst h.reads) _
  obtain ⟨e, he, rfl⟩ := List.mem_map.1 hp
  exact List.mem_flatMap.2 ⟨e, he, by rw [ptr_pair]; simp⟩

theorem dictValues_sim (h : State L F m s l) (cfg : Cfg) (args : List Str) :
    Sim L F m (dictValues cfg args s m) (op0 l (.ok (l, vectorRepr cfg.prec (l.map (·.2)))) args) := by
  refine sim_arg0 h ?_ args
  rw [value_bind]
  refine temporary_sim h (fun p hp => ?_) (reads_snd h.reads) _
  obtain ⟨e, he, rfl⟩ := List.mem_map.1 hp
  exact List.mem_flatMap.2 ⟨e, he, by rw [ptr_pair]; simp⟩

theorem dictContains_sim (h : State L F m s l) (cfg : Cfg) (kt : Str) (args : List Str) :
    Sim L F m (dictContains cfg kt args s m) (op1 l (fun a => do
      let k ← getSharedInstance kt a
      orderGuard cfg.eps (l.map (·.1)) k
      .ok (l, boolStr (mapFind (ltB cfg.eps) k l).isSome)) args) := by
  refine sim_arg1 h (fun a => ?_) args
  rw [run_bind]
  refine sim_shared h fun o p m1 _ st hn ho hs => ?_
  rw [value_bind, run_bind]
  refine sim_find st (fun e t ht => (see_pair ht).1) ho cfg.eps ?_
  intro b q a b' q' a' e e' hb hq ha he
  rw [mapFind_locate, ← he]
  rcases reads_option hq with ⟨rfl, rfl⟩ | ⟨x, t, rfl, rfl, hx⟩
  · exact sim_ok st _
  · exact sim_ok st _

/-- The reply of `getValueForKey:`. -/
def foundText (prec : Int) : Option Obj → Str
  | some v => v.repr prec
  | none => b!"null"

theorem dictGet_sim (h : State L F m s l) (cfg : Cfg) (kt : Str) (args : List Str) :
    Sim L F m (dictGet cfg kt args s m) (Knuckle.dictGet cfg kt l args) := by
  refine sim_arg1 h (fun a => ?_) args
  rw [run_bind]
  refine sim_shared h fun o p m1 _ st hn ho hs => ?_
  rw [value_bind, run_bind]
  refine sim_find st (fun e t ht => (see_pair ht).1) ho cfg.eps ?_
  intro b q a b' q' a' e e' hb hq ha he
  rw [mapFind_locate, ← he]
  rcases reads_option hq with ⟨rfl, rfl⟩ | ⟨x, t, rfl, rfl, hx⟩
  · exact sim_ok st _
  · simp only [Option.map_some]
    rw [text_ok (see_pair hx).2]
    exact sim_ok st _

theorem dictRemove_sim (h : State L F m s l) (cfg : Cfg) (kt : Str) (args : List Str) :
    Sim L F m (dictRemove cfg kt args s m) (op1 l (fun a => do
      let k ← getSharedInstance kt a
      orderGuard cfg.eps (l.map (·.1)) k
      .ok (mapErase (ltB cfg.eps) k l, b!"null")) args) := by
  refine sim_arg1 h (fun a => ?_) args
  rw [run_bind]
  refine sim_shared h fun o p m1 _ st hn ho hs => ?_
  rw [value_bind, run_bind]
  refine sim_find st (fun e t ht => (see_pair ht).1) ho cfg.eps ?_
  intro b q a b' q' a' e e' hb hq ha he
  rw [mapErase_locate, ← he]
  rcases reads_option hq with ⟨rfl, rfl⟩ | ⟨x, t, rfl, rfl, hx⟩
  · have e1 : b' ++ a' = l := e'.symm
    simp only
    rw [e1]
    exact sim_ok st _
  · obtain ⟨m2, e2, st2, s2⟩ := shrink (s' := b ++ a) (l' := b' ++ a') (D := [x.1, x.2]) st
      (by intro c; rw [e]
          simp only [held_append, held_cons, held_nil, ptr_pair, Option.toList, List.count_append, List.count_cons, List.count_nil]
          omega)
      (reads_append hb ha)
    simp only
    rw [assign_bind, ok_bind (dropAll_ok e2 _)]
    exact ⟨rfl, st2, s2.mono (by intro a ha; simp at ha ⊢; tauto)⟩

theorem dictClear_sim (h : State L F m s l) (args : List Str) :
    Sim L F m (dictClear args s m) (op0 l (.ok ([], b!"null")) args) := by
  refine sim_arg0 h ?_ args
  obtain ⟨m2, e2, st2, s2⟩ := shrink (s' := []) (l' := []) (D := pairPtrs s) h
    (by intro a; rw [held_nil, List.append_nil, held_pairs])
    reads_nil
  rw [value_bind, assign_bind, ok_bind (dropAll_ok e2 _)]
  exact ⟨rfl, st2, s2.mono (by intro a ha; simp at ha ⊢; tauto)⟩

theorem dictAssociate_sim (h : State L F m s l) (cfg : Cfg) (kt vt : Str) (args : List Str) :
    Sim L F m (dictAssociate cfg kt vt args s m) (Knuckle.dictAssociate cfg kt vt l args) := by
  refine sim_arg2 h (fun a b => ?_) args
  rw [run_bind]
  refine sim_shared h fun v pv m1 _ st1 hn1 ho1 hs1 => ?_
  rw [run_bind]
  refine sim_shared st1 fun k pk m2 _ st hn ho hs => ?_
  have hov : m2.obj pv = some v := by rw [obj_congr (hs pv (by simp)), ho1]
  rw [value_bind, run_bind]
  refine sim_find st (fun e t ht => (see_pair ht).1) ho cfg.eps ?_
  intro b q a b' q' a' e e' hb hq ha he
  have hvF : pv ∉ held s ++ F := fun x => hn1 (by simp only [List.mem_append] at x ⊢; tauto)
  have hkF : pk ∉ held s ++ F := fun x => hn (by simp only [List.mem_append, List.mem_cons] at x ⊢; tauto)
  have hkv : pk ≠ pv := fun x => hn (by simp [x])
  rcases reads_option hq with ⟨rfl, rfl⟩ | ⟨x, t, rfl, rfl, hx⟩
  · rw [show (Res.run l (Res.ok (mapInsert (ltB cfg.eps) k v l, b!"null"))) =
      Run.ret (mapInsert (ltB cfg.eps) k v l) b!"null" from rfl]
    rw [mapInsert_none (ltB cfg.eps) k v l (by rw [← he]), ← he]
    obtain ⟨m3, e3, g3, i3⟩ := good_copy (p := pk) st.good (by simp)
    obtain ⟨m4, e4, g4, i4⟩ := good_copy (p := pv) g3 (by simp)
    have st4 : State (pk :: pv :: L) F m4 (b ++ (pk, pv) :: a) (b' ++ (k, v) :: a') := by
      refine ⟨good_congr g4 ?_, ?_, ?_⟩
      · intro c; rw [e]
        simp only [held_append, held_cons, held_nil, ptr_pair, Option.toList, List.count_append, List.count_cons, List.count_nil]
        omega
      · have hp : (held (b ++ (pk, pv) :: a) ++ F).Perm (pk :: pv :: (held s ++ F)) := by
          rw [List.perm_iff_count]
          intro c; rw [e]
          simp only [held_append, held_cons, held_nil, ptr_pair, Option.toList, List.count_append, List.count_cons, List.count_nil]
          omega
        rw [hp.nodup_iff, List.nodup_cons, List.nodup_cons]
        refine ⟨?_, hvF, st.nodup⟩
        intro y
        rcases List.mem_cons.1 y with y | y
        · exact hkv y
        · exact hkF y
      · have hi : ∀ c, inst m4 c = inst m2 c := fun c => (i4 c).trans (i3 c)
        exact reads_append (reads_congr hb fun c _ => hi c) (reads_cons (pair_see (by rw [obj_congr (hi _), ho])
          (by rw [obj_congr (hi _), hov])) (reads_congr ha fun c _ => hi c))
    simp only
    rw [ok_bind (copy_ok e3 s), ok_bind (copy_ok e4 s), assign_bind]
    exact sim_all (sim_ok st4 _) fun c => (i4 c).trans (i3 c)
  · rw [show (Res.run l (Res.ok (mapInsert (ltB cfg.eps) k v l, b!"null"))) =
      Run.ret (mapInsert (ltB cfg.eps) k v l) b!"null" from rfl]
    rw [mapInsert_some (ltB cfg.eps) k v l (by rw [← he]), ← he]
    obtain ⟨m3, e3, g3, i3⟩ := good_copy (p := pv) st.good (by simp)
    obtain ⟨m4, e4, st4, s4⟩ := settle (L := pk :: pv :: L) (F := F) (D := [x.2]) (s := b ++ (x.1, pv) :: a)
      (l := b' ++ (t.1, v) :: a') g3
      (by intro c; rw [e]
          simp only [held_append, held_cons, held_nil, ptr_pair, Option.toList, List.count_append, List.count_cons, List.count_nil]
          omega)
      (by intro y hy
          have : y = x.2 := by simpa using hy
          rw [this, obj_congr (i3 _), (see_pair hx).2]; rfl)
      (by have hp : (held (b ++ (x.1, pv) :: a) ++ F).Perm (pv :: (held b ++ (x.1 :: held a) ++ F)) := by
            rw [List.perm_iff_count]
            intro c
            simp only [held_append, held_cons, ptr_pair, List.count_append, List.count_cons, List.count_nil]
            omega
          have hp' : (held s ++ F).Perm (x.2 :: (held b ++ (x.1 :: held a) ++ F)) := by
            rw [List.perm_iff_count]
            intro c; rw [e]
            simp only [held_append, held_cons, held_nil, ptr_pair, Option.toList, List.count_append, List.count_cons, List.count_nil]
            omega
          rw [hp.nodup_iff, List.nodup_cons]
          refine ⟨fun y => hvF (hp'.mem_iff.2 (List.mem_cons_of_mem _ y)), (List.nodup_cons.1 (hp'.nodup_iff.1 st.nodup)).2⟩)
      (reads_append (reads_congr hb fun c _ => i3 c) (reads_cons (pair_see (by rw [obj_congr (i3 _), (see_pair hx).1])
          (by rw [obj_congr (i3 _), hov])) (reads_congr ha fun c _ => i3 c)))
    simp only
    rw [ok_bind (copy_ok e3 s), assign_bind, ok_bind (dropAll_ok e4 _)]
    exact ⟨rfl, st4, fun c hc => (s4 c (List.mem_append_right _ hc)).trans (i3 c)⟩

theorem dict_sim (h : State L F m s l) (cfg : Cfg) (kt vt name : Str) (args : List Str) :
    Sim L F m (dispatch (dictTable cfg kt vt) name args s m) (Knuckle.dispatch l (Knuckle.dictTable cfg kt vt l) name args) := by
  refine sim_dispatch h name args ?_
  unfold dictTable Knuckle.dictTable
  exact .cons ⟨rfl, dictText_sim h ..⟩ <| .cons ⟨rfl, dictIsEmpty_sim h ..⟩ <| .cons ⟨rfl, dictContains_sim h ..⟩ <|
    .cons ⟨rfl, dictSize_sim h ..⟩ <| .cons ⟨rfl, dictKeys_sim h ..⟩ <| .cons ⟨rfl, dictValues_sim h ..⟩ <|
    .cons ⟨rfl, dictGet_sim h ..⟩ <| .cons ⟨rfl, dictAssociate_sim h ..⟩ <| .cons ⟨rfl, dictRemove_sim h ..⟩ <|
    .cons ⟨rfl, dictClear_sim h ..⟩ .nil

end

end Knuckle.Heap

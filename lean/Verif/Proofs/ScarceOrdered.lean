import Verif.Proofs.ScarceVector

namespace Knuckle.Scarce

open Spec (CutShort)
open Heap (Addr Cell Mem PosSort posSort pairPtrs locate ptrLt HCtx cellOf store Good Same State Reads Entry held thenRun
  inst obj_congr reads_length reads_congr reads_nil reads_cons reads_append reads_cons_inv reads_take reads_drop reads_get reads_objs
  same_refl good_congr good_copy good_new settle obj_inst run_bind held_addr grow shrink locate_parts locate_reads setFind_locate
  setInsert_none setInsert_some setErase_locate mapFind_locate mapErase_locate mapInsert_none mapInsert_some ptrLt_eq reads_option id_map
  see_pair pair_see reads_fst reads_snd held_pairs ptr_pair held_append held_cons held_nil)

/-! ### Searching -/

/-- A search, and then what the operator does with the place it found. -/
theorem sim_find {ε τ : Type} [Entry ε τ] {A : Allowed (List τ)} {L F : List Addr} {m : Mem} {s : List ε} {l : List τ} {f : Supply}
    (h : State L F m s l) (hf : Fed A.short f) (hA : A.part l)
    {key : ε → Addr} {keyv : τ → Obj} (hk : ∀ e t, Entry.see m e = some t → m.obj (key e) = some (keyv t))
    {p : Addr} {k : Obj} (hp : m.obj p = some k) (eps : Fl) {g : List ε × Option ε × List ε → M (List ε) Str} {r : Run (List τ)}
    (hg : ∀ b o a b' o' a' f', Fed A.short f' → s = b ++ (o.toList ++ a) → l = b' ++ (o'.toList ++ a') → Reads m b b' →
      Reads m o.toList o'.toList → Reads m a a' →
      (b', o', a') = locate (fun t => ltB eps (keyv t) k) (fun t => ltB eps k (keyv t)) l →
      Sim A L F m (g (b, o, a) s m f') r) :
    Sim A L F m ((find eps key p s >>= g) s m f) (thenRun l (orderGuard eps (l.map keyv) k) fun _ => r) := by
  have hr : Reads m (s.map key) (l.map keyv) := by
    have := h.reads
    clear h hg hA
    induction s generalizing l with
    | nil =>
      have : l = [] := List.eq_nil_of_length_eq_zero (reads_length this).symm
      subst this; exact reads_nil
    | cons x xs ih =>
      obtain ⟨t, l, rfl, ht, hr⟩ := reads_cons_inv this
      exact reads_cons (hk x t ht) (ih hr)
  unfold find
  rw [bind_assoc', ok_bind (deref_ok hp s f), bind_assoc', ok_bind (derefAll_ok hr s f), bind_assoc']
  refine sim_quiet h hf hA (calm_quiet (comparing_calm k)) fun _ f' hf' _ => ?_
  have e : ∀ x : M (List ε) (List ε × Option ε × List ε), ((lift (orderGuard eps (l.map keyv) k) >>= fun _ => x) >>= g) s m f' =
      (lift (orderGuard eps (l.map keyv) k) >>= fun _ => x >>= g) s m f' := fun x => bind_assoc' _ _ _ _ _ _
  refine (e _).symm ▸ ?_
  refine sim_lift h hf' fun _ _ => ?_
  have hl := locate_reads (m := m) (B := fun x => ptrLt eps m (key x) p) (A := fun x => ptrLt eps m p (key x))
      (B' := fun t => ltB eps (keyv t) k) (A' := fun t => ltB eps k (keyv t))
      (fun e t ht => ⟨ptrLt_eq (hk e t ht) hp eps, ptrLt_eq hp (hk e t ht) eps⟩) h.reads
  exact hg _ _ _ _ _ _ f' hf' (locate_parts _ _ s) (locate_parts _ _ l) hl.1 hl.2.1 hl.2.2 rfl

/-! ### Sets -/

section
variable {A : Allowed (List Obj)} {L F : List Addr} {m : Mem} {s : List Addr} {l : List Obj} {f : Supply} {C : Prop}

theorem setGet_sim (h : State L F m s l) (hf : Fed A.short f) (hA : A.part l) (cfg : Cfg) (hc : Cuts A C cfg.prec)
    (hC : ∀ x, .float x ∈ l → C) (args : List Str) :
    Sim A L F m (setGet cfg args s m f) (op0 l (.ok (l, setRepr cfg.prec l)) args) := by
  refine sim_arg0 h hf ?_ args
  rw [value_bind]
  exact sim_reply h hf hA hc (quiet_bind (texts_quiet cfg.prec h.reads hC) fun ts hts =>
    quiet_alloc (quiet_pure (says_cons _ (says_append (says_join hts) (.inl rfl)))))

theorem setIsEmpty_sim (h : State L F m s l) (hf : Fed A.short f) (args : List Str) :
    Sim A L F m (setIsEmpty args s m f) (op0 l (.ok (l, boolStr l.isEmpty)) args) := by
  refine sim_arg0 h hf ?_ args
  have e : s.isEmpty = l.isEmpty := by
    have := reads_length h.reads
    rcases s with _ | ⟨x, s⟩ <;> rcases l with _ | ⟨y, l⟩ <;> simp at this ⊢
  rw [value_bind, e]
  exact sim_ok h hf _

theorem setContains_sim (h : State L F m s l) (hf : Fed A.short f) (hA : A.part l) (cfg : Cfg) (et : Str) (args : List Str) :
    Sim A L F m (setContains cfg et args s m f) (op1 l (fun a => do
      let o ← getSharedInstance et a
      orderGuard cfg.eps l o
      .ok (l, boolStr (setFind (ltB cfg.eps) o l))) args) := by
  refine sim_arg1 h hf (fun a _ => ?_)
  rw [run_bind]
  refine sim_shared h hf hA fun o p m1 f _ hf st hn ho hs => ?_
  rw [value_bind, run_bind]
  have := sim_find st hf hA (key := id) (keyv := fun x => x) (fun e t ht => ht) ho cfg.eps
    (g := fun r => pure (boolStr r.2.1.isSome)) (r := .ret l (boolStr (setFind (ltB cfg.eps) o l))) ?_
  · rw [id_map] at this; exact this
  · intro b q a b' q' a' f hf e e' hb hq ha he
    rw [setFind_locate, ← he]
    rcases reads_option hq with ⟨rfl, rfl⟩ | ⟨x, t, rfl, rfl, hx⟩
    · exact sim_ok st hf _
    · exact sim_ok st hf _

theorem setAdd_sim (h : State L F m s l) (hf : Fed A.short f) (hA : A.part l) (cfg : Cfg) (et : Str) (args : List Str) :
    Sim A L F m (setAdd cfg et args s m f) (op1 l (fun a => do
      let o ← getSharedInstance et a
      orderGuard cfg.eps l o
      .ok (setInsert (ltB cfg.eps) o l, b!"null")) args) := by
  refine sim_arg1 h hf (fun a _ => ?_)
  rw [run_bind]
  refine sim_shared h hf hA fun o p m1 f _ hf st hn ho hs => ?_
  rw [value_bind, run_bind]
  have := sim_find st hf hA (key := id) (keyv := fun x => x) (fun e t ht => ht) ho cfg.eps
    (g := fun r => match r.2.1 with
      | some _ => pure b!"null"
      | none => do
        alloc
        copy p
        assign (r.1 ++ p :: r.2.2)
        pure b!"null") (r := .ret (setInsert (ltB cfg.eps) o l) b!"null") ?_
  · rw [id_map] at this; exact this
  · intro b q a b' q' a' f hf e e' hb hq ha he
    rcases reads_option hq with ⟨rfl, rfl⟩ | ⟨x, t, rfl, rfl, hx⟩
    · rw [setInsert_none (ltB cfg.eps) o l (by rw [← he]), ← he]
      obtain ⟨m2, e2, st2, s2⟩ := grow (s' := b ++ p :: a) (l' := b' ++ o :: a') st hn
        (by intro c; rw [e]; simp only [held_addr, Option.toList, List.nil_append, List.count_append, List.count_cons]; omega)
        (reads_append hb (reads_cons ho ha))
      simp only
      refine sim_alloc st hf hA fun f hf => ?_
      rw [ok_bind (copy_ok e2 s f), assign_bind]
      exact sim_all (sim_ok st2 hf _) s2
    · rw [setInsert_some (ltB cfg.eps) o l (by rw [← he])]
      exact sim_ok st hf _

theorem setRemove_sim (h : State L F m s l) (hf : Fed A.short f) (hA : A.part l) (cfg : Cfg) (et : Str) (args : List Str) :
    Sim A L F m (setRemove cfg et args s m f) (op1 l (fun a => do
      let o ← getSharedInstance et a
      orderGuard cfg.eps l o
      .ok (setErase (ltB cfg.eps) o l, b!"null")) args) := by
  refine sim_arg1 h hf (fun a _ => ?_)
  rw [run_bind]
  refine sim_shared h hf hA fun o p m1 f _ hf st hn ho hs => ?_
  rw [value_bind, run_bind]
  have := sim_find st hf hA (key := id) (keyv := fun x => x) (fun e t ht => ht) ho cfg.eps
    (g := fun r => match r.2.1 with
      | some q => do
        assign (r.1 ++ r.2.2)
        dropAll [q]
        pure b!"null"
      | none => pure b!"null") (r := .ret (setErase (ltB cfg.eps) o l) b!"null") ?_
  · rw [id_map] at this; exact this
  · intro b q a b' q' a' f hf e e' hb hq ha he
    rw [setErase_locate, ← he]
    rcases reads_option hq with ⟨rfl, rfl⟩ | ⟨x, t, rfl, rfl, hx⟩
    · have e1 : b' ++ a' = l := e'.symm
      simp only
      rw [e1]
      exact sim_ok st hf _
    · obtain ⟨m2, e2, st2, s2⟩ := shrink (s' := b ++ a) (l' := b' ++ a') (D := [x]) st
        (by intro c; rw [e]; simp only [held_addr, Option.toList, List.count_append, List.count_cons, List.count_nil]; omega)
        (reads_append hb ha)
      simp only
      rw [assign_bind, ok_bind (dropAll_ok e2 _ f)]
      exact sim_ok' st2 (s2.mono (by intro a ha; simp at ha ⊢; tauto)) hf _

theorem set_sim (h : State L F m s l) (hf : Fed A.short f) (hA : A.part l) (cfg : Cfg) (et name : Str) (args : List Str)
    (hc : Cuts A C cfg.prec) (hC : ∀ x, .float x ∈ l → C) :
    Sim A L F m (dispatch (setTable cfg et) name args s m f) (Knuckle.dispatch l (Knuckle.setTable cfg et l) name args) := by
  refine sim_dispatch h hf name args ?_
  unfold setTable Knuckle.setTable
  exact .cons ⟨rfl, fun _ => setGet_sim h hf hA cfg hc hC args⟩ <| .cons ⟨rfl, fun _ => setIsEmpty_sim h hf args⟩ <|
    .cons ⟨rfl, fun _ => setContains_sim h hf hA ..⟩ <|
    .cons ⟨rfl, fun _ => listSize_sim h hf args⟩ <| .cons ⟨rfl, fun _ => setAdd_sim h hf hA ..⟩ <|
    .cons ⟨rfl, fun _ => setRemove_sim h hf hA ..⟩ <|
    .cons ⟨rfl, fun _ => listClear_sim h hf args⟩ .nil

end

/-! ### Dictionaries -/

section
variable {A : Allowed (List (Obj × Obj))} {L F : List Addr} {m : Mem} {s : List (Addr × Addr)} {l : List (Obj × Obj)} {f : Supply}
  {C : Prop}

theorem dictText_sim (h : State L F m s l) (hf : Fed A.short f) (hA : A.part l) (cfg : Cfg) (hc : Cuts A C cfg.prec)
    (hC : ∀ e ∈ l, ∀ x, e.1 = .float x ∨ e.2 = .float x → C) (args : List Str) :
    Sim A L F m (dictText cfg args s m f) (op0 l (.ok (l, dictRepr cfg.prec l)) args) := by
  refine sim_arg0 h hf ?_ args
  rw [value_bind]
  exact sim_reply h hf hA hc (quiet_bind (pairTexts_quiet cfg.prec h.reads hC) fun ts hts =>
    quiet_alloc (quiet_pure (says_cons _ (says_append (says_join hts) (.inl rfl)))))

theorem dictIsEmpty_sim (h : State L F m s l) (hf : Fed A.short f) (args : List Str) :
    Sim A L F m (dictIsEmpty args s m f) (op0 l (.ok (l, boolStr l.isEmpty)) args) := by
  refine sim_arg0 h hf ?_ args
  have e : s.isEmpty = l.isEmpty := by
    have := reads_length h.reads
    rcases s with _ | ⟨x, s⟩ <;> rcases l with _ | ⟨y, l⟩ <;> simp at this ⊢
  rw [value_bind, e]
  exact sim_ok h hf _

theorem dictSize_sim (h : State L F m s l) (hf : Fed A.short f) (args : List Str) :
    Sim A L F m (dictSize args s m f) (op0 l (.ok (l, intStr l.length)) args) := by
  refine sim_arg0 h hf ?_ args
  rw [value_bind, reads_length h.reads]
  exact sim_ok h hf _

theorem dictKeys_sim (h : State L F m s l) (hf : Fed A.short f) (hA : A.part l) (cfg : Cfg) (hc : Cuts A C cfg.prec)
    (hC : ∀ e ∈ l, ∀ x, e.1 = .float x ∨ e.2 = .float x → C) (args : List Str) :
    Sim A L F m (dictKeys cfg args s m f) (op0 l (.ok (l, vectorRepr cfg.prec (l.map (·.1)))) args) := by
  refine sim_arg0 h hf ?_ args
  rw [value_bind]
  refine temporary_sim h hf hA hc (fun p hp => ?_) (reads_fst h.reads) fun x hx => ?_
  · obtain ⟨e, he, rfl⟩ := List.mem_map.1 hp
    exact List.mem_flatMap.2 ⟨e, he, by rw [ptr_pair]; simp⟩
  · obtain ⟨e, he, hx⟩ := List.mem_map.1 hx
    exact hC e he x (.inl hx)

theorem dictValues_sim (h : State L F m s l) (hf : Fed A.short f) (hA : A.part l) (cfg : Cfg) (hc : Cuts A C cfg.prec)
    (hC : ∀ e ∈ l, ∀ x, e.1 = .float x ∨ e.2 = .float x → C) (args : List Str) :
    Sim A L F m (dictValues cfg args s m f) (op0 l (.ok (l, vectorRepr cfg.prec (l.map (·.2)))) args) := by
  refine sim_arg0 h hf ?_ args
  rw [value_bind]
  refine temporary_sim h hf hA hc (fun p hp => ?_) (reads_snd h.reads) fun x hx => ?_
  · obtain ⟨e, he, rfl⟩ := List.mem_map.1 hp
    exact List.mem_flatMap.2 ⟨e, he, by rw [ptr_pair]; simp⟩
  · obtain ⟨e, he, hx⟩ := List.mem_map.1 hx
    exact hC e he x (.inr hx)

theorem dictContains_sim (h : State L F m s l) (hf : Fed A.short f) (hA : A.part l) (cfg : Cfg) (kt : Str) (args : List Str) :
    Sim A L F m (dictContains cfg kt args s m f) (op1 l (fun a => do
      let k ← getSharedInstance kt a
      orderGuard cfg.eps (l.map (·.1)) k
      .ok (l, boolStr (mapFind (ltB cfg.eps) k l).isSome)) args) := by
  refine sim_arg1 h hf (fun a _ => ?_)
  rw [run_bind]
  refine sim_shared h hf hA fun o p m1 f _ hf st hn ho hs => ?_
  rw [value_bind, run_bind]
  refine sim_find st hf hA (fun e t ht => (see_pair ht).1) ho cfg.eps ?_
  intro b q a b' q' a' f hf e e' hb hq ha he
  rw [mapFind_locate, ← he]
  rcases reads_option hq with ⟨rfl, rfl⟩ | ⟨x, t, rfl, rfl, hx⟩
  · exact sim_ok st hf _
  · exact sim_ok st hf _

theorem dictGet_sim (h : State L F m s l) (hf : Fed A.short f) (hA : A.part l) (cfg : Cfg) (hc : Cuts A C cfg.prec)
    (hC : ∀ e ∈ l, ∀ x, e.1 = .float x ∨ e.2 = .float x → C) (kt : Str) (args : List Str) :
    Sim A L F m (dictGet cfg kt args s m f) (Knuckle.dictGet cfg kt l args) := by
  refine sim_arg1 h hf (fun a _ => ?_)
  rw [run_bind]
  refine sim_shared h hf hA fun o p m1 f _ hf st hn ho hs => ?_
  rw [value_bind, run_bind]
  refine sim_find st hf hA (fun e t ht => (see_pair ht).1) ho cfg.eps ?_
  intro b q a b' q' a' f hf e e' hb hq ha he
  rw [mapFind_locate, ← he]
  rcases reads_option hq with ⟨rfl, rfl⟩ | ⟨x, t, rfl, rfl, hx⟩
  · exact sim_ok st hf _
  · simp only [Option.map_some]
    exact sim_reply st hf hA hc (text_quiet (see_pair hx).2 cfg.prec fun y hy => hC t (by rw [e']; simp) y (.inr hy))

theorem dictRemove_sim (h : State L F m s l) (hf : Fed A.short f) (hA : A.part l) (cfg : Cfg) (kt : Str) (args : List Str) :
    Sim A L F m (dictRemove cfg kt args s m f) (op1 l (fun a => do
      let k ← getSharedInstance kt a
      orderGuard cfg.eps (l.map (·.1)) k
      .ok (mapErase (ltB cfg.eps) k l, b!"null")) args) := by
  refine sim_arg1 h hf (fun a _ => ?_)
  rw [run_bind]
  refine sim_shared h hf hA fun o p m1 f _ hf st hn ho hs => ?_
  rw [value_bind, run_bind]
  refine sim_find st hf hA (fun e t ht => (see_pair ht).1) ho cfg.eps ?_
  intro b q a b' q' a' f hf e e' hb hq ha he
  rw [mapErase_locate, ← he]
  rcases reads_option hq with ⟨rfl, rfl⟩ | ⟨x, t, rfl, rfl, hx⟩
  · have e1 : b' ++ a' = l := e'.symm
    simp only
    rw [e1]
    exact sim_ok st hf _
  · obtain ⟨m2, e2, st2, s2⟩ := shrink (s' := b ++ a) (l' := b' ++ a') (D := [x.1, x.2]) st
      (by intro c; rw [e]
          simp only [held_append, held_cons, held_nil, ptr_pair, Option.toList, List.count_append, List.count_cons, List.count_nil]
          omega)
      (reads_append hb ha)
    simp only
    rw [assign_bind, ok_bind (dropAll_ok e2 _ f)]
    exact sim_ok' st2 (s2.mono (by intro a ha; simp at ha ⊢; tauto)) hf _

theorem dictClear_sim (h : State L F m s l) (hf : Fed A.short f) (args : List Str) :
    Sim A L F m (dictClear args s m f) (op0 l (.ok ([], b!"null")) args) := by
  refine sim_arg0 h hf ?_ args
  obtain ⟨m2, e2, st2, s2⟩ := shrink (s' := []) (l' := []) (D := pairPtrs s) h
    (by intro a; rw [held_nil, List.append_nil, held_pairs])
    reads_nil
  rw [value_bind, assign_bind, ok_bind (dropAll_ok e2 _ f)]
  exact sim_ok' st2 (s2.mono (by intro a ha; simp at ha ⊢; tauto)) hf _

theorem dictAssociate_sim (h : State L F m s l) (hf : Fed A.short f) (hA : A.part l) (cfg : Cfg) (kt vt : Str) (args : List Str) :
    Sim A L F m (dictAssociate cfg kt vt args s m f) (Knuckle.dictAssociate cfg kt vt l args) := by
  refine sim_arg2 h hf (fun a b _ => ?_)
  rw [run_bind]
  refine sim_shared h hf hA fun v pv m1 f _ hf st1 hn1 ho1 hs1 => ?_
  rw [run_bind]
  refine sim_shared st1 hf hA fun k pk m2 f _ hf st hn ho hs => ?_
  have hov : m2.obj pv = some v := by rw [obj_congr (hs pv (by simp)), ho1]
  rw [value_bind, run_bind]
  refine sim_find st hf hA (fun e t ht => (see_pair ht).1) ho cfg.eps ?_
  intro b q a b' q' a' f hf e e' hb hq ha he
  have hvF : pv ∉ held s ++ F := fun x => hn1 (by simp only [List.mem_append] at x ⊢; tauto)
  have hkF : pk ∉ held s ++ F := fun x => hn (by simp only [List.mem_append, List.mem_cons] at x ⊢; tauto)
  have hkv : pk ≠ pv := fun x => hn (by simp [x])
  rcases reads_option hq with ⟨rfl, rfl⟩ | ⟨x, t, rfl, rfl, hx⟩
  · rw [show (Res.run l (Res.ok (mapInsert (ltB cfg.eps) k v l, b!"null"))) =
      Run.ret (mapInsert (ltB cfg.eps) k v l) b!"null" from rfl]
    rw [mapInsert_none (ltB cfg.eps) k v l (by rw [← he]), ← he]
    obtain ⟨m3, e3, g3, i3⟩ := good_copy (p := pk) st.good (by simp)
    obtain ⟨m4, e4, g4, i4⟩ := good_copy (p := pv) g3 (by simp)
    have st4 : State (pk :: pv :: L) F m4 (b ++ (pk, pv) :: a) (b' ++ (k, v) :: a') := by
      refine ⟨good_congr g4 ?_, ?_, ?_⟩
      · intro c; rw [e]
        simp only [held_append, held_cons, held_nil, ptr_pair, Option.toList, List.count_append, List.count_cons, List.count_nil]
        omega
      · have hp : (held (b ++ (pk, pv) :: a) ++ F).Perm (pk :: pv :: (held s ++ F)) := by
          rw [List.perm_iff_count]
          intro c; rw [e]
          simp only [held_append, held_cons, held_nil, ptr_pair, Option.toList, List.count_append, List.count_cons, List.count_nil]
          omega
        rw [hp.nodup_iff, List.nodup_cons, List.nodup_cons]
        refine ⟨?_, hvF, st.nodup⟩
        intro y
        rcases List.mem_cons.1 y with y | y
        · exact hkv y
        · exact hkF y
      · have hi : ∀ c, inst m4 c = inst m2 c := fun c => (i4 c).trans (i3 c)
        exact reads_append (reads_congr hb fun c _ => hi c) (reads_cons (pair_see (by rw [obj_congr (hi _), ho])
          (by rw [obj_congr (hi _), hov])) (reads_congr ha fun c _ => hi c))
    simp only
    refine sim_alloc st hf hA fun f hf => ?_
    rw [ok_bind (copy_ok e3 s f), ok_bind (copy_ok e4 s f), assign_bind]
    exact sim_all (sim_ok st4 hf _) fun c => (i4 c).trans (i3 c)
  · rw [show (Res.run l (Res.ok (mapInsert (ltB cfg.eps) k v l, b!"null"))) =
      Run.ret (mapInsert (ltB cfg.eps) k v l) b!"null" from rfl]
    rw [mapInsert_some (ltB cfg.eps) k v l (by rw [← he]), ← he]
    obtain ⟨m3, e3, g3, i3⟩ := good_copy (p := pv) st.good (by simp)
    obtain ⟨m4, e4, st4, s4⟩ := settle (L := pk :: pv :: L) (F := F) (D := [x.2]) (s := b ++ (x.1, pv) :: a)
      (l := b' ++ (t.1, v) :: a') g3
      (by intro c; rw [e]
          simp only [held_append, held_cons, held_nil, ptr_pair, Option.toList, List.count_append, List.count_cons, List.count_nil]
          omega)
      (by intro y hy
          have : y = x.2 := by simpa using hy
          rw [this, obj_congr (i3 _), (see_pair hx).2]; rfl)
      (by have hp : (held (b ++ (x.1, pv) :: a) ++ F).Perm (pv :: (held b ++ (x.1 :: held a) ++ F)) := by
            rw [List.perm_iff_count]
            intro c
            simp only [held_append, held_cons, ptr_pair, List.count_append, List.count_cons, List.count_nil]
            omega
          have hp' : (held s ++ F).Perm (x.2 :: (held b ++ (x.1 :: held a) ++ F)) := by
            rw [List.perm_iff_count]
            intro c; rw [e]
            simp only [held_append, held_cons, held_nil, ptr_pair, Option.toList, List.count_append, List.count_cons, List.count_nil]
            omega
          rw [hp.nodup_iff, List.nodup_cons]
          refine ⟨fun y => hvF (hp'.mem_iff.2 (List.mem_cons_of_mem _ y)), (List.nodup_cons.1 (hp'.nodup_iff.1 st.nodup)).2⟩)
      (reads_append (reads_congr hb fun c _ => i3 c) (reads_cons (pair_see (by rw [obj_congr (i3 _), (see_pair hx).1])
          (by rw [obj_congr (i3 _), hov])) (reads_congr ha fun c _ => i3 c)))
    simp only
    rw [ok_bind (copy_ok e3 s f), assign_bind, ok_bind (dropAll_ok e4 _ f)]
    exact sim_ok' st4 (fun c hc => (s4 c (List.mem_append_right _ hc)).trans (i3 c)) hf _

theorem dict_sim (h : State L F m s l) (hf : Fed A.short f) (hA : A.part l) (cfg : Cfg) (kt vt name : Str) (args : List Str)
    (hc : Cuts A C cfg.prec) (hC : ∀ e ∈ l, ∀ x, e.1 = .float x ∨ e.2 = .float x → C) :
    Sim A L F m (dispatch (dictTable cfg kt vt) name args s m f) (Knuckle.dispatch l (Knuckle.dictTable cfg kt vt l) name args) := by
  refine sim_dispatch h hf name args ?_
  unfold dictTable Knuckle.dictTable
  exact .cons ⟨rfl, fun _ => dictText_sim h hf hA cfg hc hC args⟩ <| .cons ⟨rfl, fun _ => dictIsEmpty_sim h hf args⟩ <|
    .cons ⟨rfl, fun _ => dictContains_sim h hf hA ..⟩ <|
    .cons ⟨rfl, fun _ => dictSize_sim h hf args⟩ <| .cons ⟨rfl, fun _ => dictKeys_sim h hf hA cfg hc hC args⟩ <|
    .cons ⟨rfl, fun _ => dictValues_sim h hf hA cfg hc hC args⟩ <|
    .cons ⟨rfl, fun _ => dictGet_sim h hf hA cfg hc hC kt args⟩ <| .cons ⟨rfl, fun _ => dictAssociate_sim h hf hA ..⟩ <|
    .cons ⟨rfl, fun _ => dictRemove_sim h hf hA ..⟩ <|
    .cons ⟨rfl, fun _ => dictClear_sim h hf args⟩ .nil

end

end Knuckle.Scarce

import Verif.Proofs.HeapVector

namespace Knuckle.Heap

section
variable {L F : List Addr} {m : Mem} {s : List Addr} {l : List Obj}

theorem equal_bind {σ β : Type} {m : Mem} {p q : Addr} {a b : Obj} (hp : m.obj p = some a) (hq : m.obj q = some b) (eps : Fl)
    (f : Bool → M σ β) (s : σ) : (equal eps p q >>= f) s m = (lift (equalTo eps a b) >>= f) s m :=
  bind_congr' (equal_eq hp hq eps s) f

theorem removeFirst_sim {eps : Fl} {p : Addr} {o : Obj} (hp : m.obj p = some o) : ∀ {xs pre : List Addr} {xl pl : List Obj},
    State L F m (pre ++ xs) (pl ++ xl) → Reads m pre pl → Reads m xs xl →
    Sim L F m ((removeFirst eps p pre xs >>= fun _ => pure b!"null") (pre ++ xs) m)
      (thenRun (pl ++ xl) (removeFirstLoop eps o pl xl) fun r => .ret r b!"null")
  | [], pre, xl, pl, h, hpre, hxs => by
    have : xl = [] := List.eq_nil_of_length_eq_zero (reads_length hxs).symm
    subst this
    rw [List.append_nil, List.append_nil] at h
    rw [List.append_nil, List.append_nil]
    exact sim_ok h _
  | x :: xs, pre, xl, pl, h, hpre, hxs => by
    obtain ⟨a, xl, rfl, ha, hr⟩ := reads_cons_inv hxs
    have e : removeFirst eps p pre (x :: xs) (pre ++ x :: xs) m = _ := equal_bind ha hp eps _ _
    rw [bind_apply]; unfold M.bind
    rw [e, lift_bind]
    unfold removeFirstLoop
    rcases equalTo eps a o with (_ | _) | ex | _
    · have := removeFirst_sim (eps := eps) hp (xs := xs) (pre := pre ++ [x]) (xl := xl) (pl := pl ++ [a])
        (by simpa using h) (reads_append hpre (reads_cons ha reads_nil)) hr
      rw [bind_apply] at this
      unfold M.bind at this
      simpa using this
    · obtain ⟨m2, e2, st2, s2⟩ := shrink (s' := pre ++ xs) (l' := pl ++ xl) (D := [x]) h
        (by intro a; simp only [held_addr, List.count_append, List.count_cons, List.count_nil]; omega)
        (reads_append hpre hr)
      simp only [if_true, assign_bind, dropAll_ok e2]
      exact ⟨rfl, st2, s2.mono (by intro a ha; simp at ha ⊢; tauto)⟩
    · exact sim_err h _
    · trivial

theorem removeAll_sim {eps : Fl} {p : Addr} {o : Obj} : ∀ {xs pre : List Addr} {xl pl : List Obj} {m : Mem},
    m.obj p = some o → p ∈ L →
    State L F m (pre ++ xs) (pl ++ xl) → Reads m pre pl → Reads m xs xl →
    Sim L F m ((removeAll eps p pre xs >>= fun _ => pure b!"null") (pre ++ xs) m) (removeAllLoop eps o pl xl)
  | [], pre, xl, pl, m, hp, hL, h, hpre, hxs => by
    have : xl = [] := List.eq_nil_of_length_eq_zero (reads_length hxs).symm
    subst this
    rw [List.append_nil, List.append_nil] at h
    rw [List.append_nil]
    exact sim_ok h _
  | x :: xs, pre, xl, pl, m, hp, hL, h, hpre, hxs => by
    obtain ⟨a, xl, rfl, ha, hr⟩ := reads_cons_inv hxs
    have e : removeAll eps p pre (x :: xs) (pre ++ x :: xs) m = _ := equal_bind ha hp eps _ _
    rw [bind_apply]; unfold M.bind
    rw [e, lift_bind]
    unfold removeAllLoop
    rcases equalTo eps a o with (_ | _) | ex | _
    · have := removeAll_sim (xs := xs) (pre := pre ++ [x]) (xl := xl) (pl := pl ++ [a]) (eps := eps) hp hL
        (by simpa using h) (reads_append hpre (reads_cons ha reads_nil)) hr
      rw [bind_apply] at this
      unfold M.bind at this
      simpa using this
    · obtain ⟨m2, e2, st2, s2⟩ := shrink (s' := pre ++ xs) (l' := pl ++ xl) (D := [x]) h
        (by intro a; simp only [held_addr, List.count_append, List.count_cons, List.count_nil]; omega)
        (reads_append hpre hr)
      simp only [if_true, assign_bind]
      rw [ok_bind (dropAll_ok e2 _)]
      have := removeAll_sim (eps := eps) (p := p) (o := o) (by rw [obj_congr (s2 p (by simp [hL])), hp]) hL st2
        (reads_congr hpre (s2.mono (by intro a ha; simp at ha ⊢; tauto)))
        (reads_congr hr (s2.mono (by intro a ha; simp at ha ⊢; tauto)))
      rw [bind_apply] at this
      exact sim_same this (s2.mono (by intro a ha; simp at ha ⊢; tauto))
    · exact sim_err h _
    · trivial

/-- `_value[i] = get_shared_instance(…)`. -/
theorem replace_one {x : Addr} {xs pre : List Addr} {a n : Obj} {xl pl : List Obj}
    (h : State L F m (pre ++ x :: xs) (pl ++ a :: xl)) (hpre : Reads m pre pl) (hr : Reads m xs xl) :
    ∃ q m2, q = (m.new (.obj n)).1 ∧ (m.new (.obj n)).2.dropAll [x] = some m2 ∧
      State L F m2 (pre ++ q :: xs) (pl ++ n :: xl) ∧ Same m m2 (pre ++ xs ++ (L ++ F)) ∧ m2.obj q = some n := by
  obtain ⟨g, hn, hi, hs⟩ := good_new h.good (.obj n)
  refine ⟨(m.new (.obj n)).1, ?_⟩
  have ho : (m.new (.obj n)).2.obj (m.new (.obj n)).1 = some n := by rw [obj_inst, hi]
  have hsub : ∀ a ∈ pre ++ xs ++ (L ++ F), a ∈ held (pre ++ x :: xs) ++ (L ++ F) := by
    intro a ha; simp only [held_addr, List.mem_append, List.mem_cons] at ha ⊢; tauto
  obtain ⟨m2, e2, st2, s2⟩ := settle (L := L) (F := F) (D := [x]) (s := pre ++ (m.new (.obj n)).1 :: xs) (l := pl ++ n :: xl) g
    (by intro b; simp only [held_addr, List.count_append, List.count_cons, List.count_nil]; omega)
    (by intro q hq
        have : q = x := by simpa using hq
        subst this
        rw [obj_congr (hs q (by simp only [held_addr]; simp))]
        exact reads_objs h.reads q (by simp only [held_addr]; simp))
    (by have hp : (held (pre ++ (m.new (.obj n)).1 :: xs) ++ F).Perm ((m.new (.obj n)).1 :: (pre ++ xs ++ F)) := by
          rw [List.perm_iff_count]
          intro b; simp only [held_addr, List.count_append, List.count_cons]; omega
        rw [hp.nodup_iff, List.nodup_cons]
        constructor
        · intro hx
          apply hn
          simp only [held_addr, List.mem_append, List.mem_cons] at hx ⊢
          tauto
        · have hp' : (held (pre ++ x :: xs) ++ F).Perm (x :: (pre ++ xs ++ F)) := by
            rw [List.perm_iff_count]
            intro b; simp only [held_addr, List.count_append, List.count_cons]; omega
          exact (List.nodup_cons.1 ((hp'.nodup_iff).1 h.nodup)).2)
    (reads_append (reads_congr hpre (hs.mono (by intro a ha; simp at ha ⊢; tauto)))
      (reads_cons ho (reads_congr hr (hs.mono (by intro a ha; simp at ha ⊢; tauto)))))
  refine ⟨m2, rfl, e2, st2, ?_, ?_⟩
  · exact (hs.mono hsub).trans (s2.mono (by intro a ha; simp only [held_addr, List.mem_append, List.mem_cons] at ha ⊢; tauto))
  · rw [obj_congr (s2 _ (by simp only [held_addr]; simp)), ho]

theorem replaceFirst_sim {eps : Fl} {et b : Str} {p : Addr} {o : Obj} (hp : m.obj p = some o) :
    ∀ {xs pre : List Addr} {xl pl : List Obj},
    State L F m (pre ++ xs) (pl ++ xl) → Reads m pre pl → Reads m xs xl →
    Sim L F m ((replaceFirst eps et b p pre xs >>= fun _ => pure b!"null") (pre ++ xs) m)
      (thenRun (pl ++ xl) (replaceFirstLoop eps et b o pl xl) fun r => .ret r b!"null")
  | [], pre, xl, pl, h, hpre, hxs => by
    have : xl = [] := List.eq_nil_of_length_eq_zero (reads_length hxs).symm
    subst this
    rw [List.append_nil, List.append_nil] at h
    rw [List.append_nil, List.append_nil]
    exact sim_ok h _
  | x :: xs, pre, xl, pl, h, hpre, hxs => by
    obtain ⟨a, xl, rfl, ha, hr⟩ := reads_cons_inv hxs
    have e : replaceFirst eps et b p pre (x :: xs) (pre ++ x :: xs) m = _ := equal_bind ha hp eps _ _
    rw [bind_apply]; unfold M.bind
    rw [e, lift_bind]
    unfold replaceFirstLoop
    rcases equalTo eps a o with (_ | _) | ex | _
    · have := replaceFirst_sim (eps := eps) hp (xs := xs) (pre := pre ++ [x]) (xl := xl) (pl := pl ++ [a]) (et := et) (b := b)
        (by simpa using h) (reads_append hpre (reads_cons ha reads_nil)) hr
      rw [bind_apply] at this
      unfold M.bind at this
      simpa using this
    · simp only [if_true]
      rcases eg : getSharedInstance et b with n | ex | _
      · obtain ⟨q, m2, rfl, e2, st2, s2, ho2⟩ := replace_one (n := n) h hpre hr
        rw [ok_bind (newShared_ok eg _ _), assign_bind, dropAll_ok e2]
        exact ⟨rfl, st2, s2.mono (by intro a ha; simp at ha ⊢; tauto)⟩
      · rw [bind_apply]; unfold M.bind; rw [newShared_err eg]
        exact sim_err h _
      · rw [bind_apply]; unfold M.bind; rw [newShared_ub eg]
        trivial
    · exact sim_err h _
    · trivial

theorem replaceAll_sim {eps : Fl} {et b : Str} {p : Addr} {o : Obj} :
    ∀ {xs pre : List Addr} {xl pl : List Obj} {m : Mem}, m.obj p = some o → p ∈ L →
    State L F m (pre ++ xs) (pl ++ xl) → Reads m pre pl → Reads m xs xl →
    Sim L F m ((replaceAll eps et b p pre xs >>= fun _ => pure b!"null") (pre ++ xs) m)
      (replaceAllLoop eps et b o pl xl)
  | [], pre, xl, pl, m, hp, hL, h, hpre, hxs => by
    have : xl = [] := List.eq_nil_of_length_eq_zero (reads_length hxs).symm
    subst this
    rw [List.append_nil, List.append_nil] at h
    rw [List.append_nil]
    exact sim_ok h _
  | x :: xs, pre, xl, pl, m, hp, hL, h, hpre, hxs => by
    obtain ⟨a, xl, rfl, ha, hr⟩ := reads_cons_inv hxs
    have e : replaceAll eps et b p pre (x :: xs) (pre ++ x :: xs) m = _ := equal_bind ha hp eps _ _
    rw [bind_apply]; unfold M.bind
    rw [e, lift_bind]
    unfold replaceAllLoop
    rcases equalTo eps a o with (_ | _) | ex | _
    · have := replaceAll_sim (xs := xs) (pre := pre ++ [x]) (xl := xl) (pl := pl ++ [a]) (eps := eps) (et := et) (b := b) hp hL
        (by simpa using h) (reads_append hpre (reads_cons ha reads_nil)) hr
      rw [bind_apply] at this
      unfold M.bind at this
      simpa using this
    · simp only [if_true]
      rcases eg : getSharedInstance et b with n | ex | _
      · obtain ⟨q, m2, rfl, e2, st2, s2, ho2⟩ := replace_one (n := n) h hpre hr
        rw [ok_bind (newShared_ok eg _ _), assign_bind, ok_bind (dropAll_ok e2 _)]
        have := replaceAll_sim (xs := xs) (pre := pre ++ [(m.new (.obj n)).1]) (xl := xl) (pl := pl ++ [n]) (eps := eps)
          (et := et) (b := b) (show m2.obj p = some o by rw [obj_congr (s2 p (by simp [hL])), hp]) hL
          (by simpa using st2)
          (reads_append (reads_congr hpre (s2.mono (by intro a ha; simp at ha ⊢; tauto))) (reads_cons ho2 reads_nil))
          (reads_congr hr (s2.mono (by intro a ha; simp at ha ⊢; tauto)))
        rw [bind_apply] at this
        unfold M.bind at this
        refine sim_same (m1 := m2) ?_ (s2.mono (by intro a ha; simp at ha ⊢; tauto))
        simpa using this
      · rw [bind_apply]; unfold M.bind; rw [newShared_err eg]
        exact sim_err h _
      · rw [bind_apply]; unfold M.bind; rw [newShared_ub eg]
        trivial
    · exact sim_err h _
    · trivial

theorem vecRemoveFirst_sim (h : State L F m s l) (cfg : Cfg) (et : Str) (args : List Str) :
    Sim L F m (vecRemoveFirst cfg et args s m) (Knuckle.vecRemoveFirst cfg et l args) := by
  refine sim_arg1 h (fun a => ?_) args
  rw [run_bind]
  refine sim_shared h fun o p m1 _ st hn ho hs => ?_
  rw [value_bind, run_bind]
  exact removeFirst_sim ho (pre := []) (pl := []) st reads_nil st.reads

theorem vecRemoveFirstFrom_sim (h : State L F m s l) (cfg : Cfg) (et : Str) (args : List Str) :
    Sim L F m (vecRemoveFirstFrom cfg et args s m) (Knuckle.vecRemoveFirstFrom cfg et l args) := by
  refine sim_arg2 h (fun a b => ?_) args
  rw [run_bind]
  refine sim_shared h fun o p m1 _ st hn ho hs => ?_
  rw [run_bind]
  refine sim_lift st fun i _ => ?_
  rw [value_bind, run_bind, reads_length st.reads]
  refine sim_lift st fun _ _ => ?_
  rw [run_bind]
  have := removeFirst_sim (eps := cfg.eps) ho (pre := s.take i.toNat) (pl := l.take i.toNat) (xs := s.drop i.toNat)
    (xl := l.drop i.toNat) (by simpa using st) (reads_take st.reads _) (reads_drop st.reads _)
  rw [List.take_append_drop, List.take_append_drop] at this
  exact this

theorem vecRemoveAll_sim (h : State L F m s l) (cfg : Cfg) (et : Str) (args : List Str) :
    Sim L F m (vecRemoveAll cfg et args s m) (Knuckle.vecRemoveAll cfg et l args) := by
  rcases args with _ | ⟨a, _ | ⟨b, t⟩⟩
  · exact sim_err h _
  · have e : Knuckle.vecRemoveAll cfg et l [a] = thenRun l (getSharedInstance et a) fun o => removeAllLoop cfg.eps o [] l := by
      unfold Knuckle.vecRemoveAll thenRun
      simp only
      cases getSharedInstance et a <;> rfl
    rw [e]
    refine sim_shared h (k := fun o => removeAllLoop cfg.eps o [] l) fun o p m1 _ st hn ho hs => ?_
    rw [value_bind]
    exact removeAll_sim ho (by simp) (pre := []) (pl := []) st reads_nil st.reads
  · exact sim_err h _

theorem vecReplaceFirst_sim (h : State L F m s l) (cfg : Cfg) (et : Str) (args : List Str) :
    Sim L F m (vecReplaceFirst cfg et args s m) (Knuckle.vecReplaceFirst cfg et l args) := by
  refine sim_arg2 h (fun a b => ?_) args
  rw [run_bind]
  refine sim_shared h fun o p m1 _ st hn ho hs => ?_
  rw [run_bind]
  refine sim_shared st fun o' p' m2 _ st' hn' ho' hs' => ?_
  rw [value_bind, run_bind]
  exact replaceFirst_sim (by rw [obj_congr (hs' p (by simp)), ho]) (pre := []) (pl := []) st' reads_nil st'.reads

theorem vecReplaceFirstFrom_sim (h : State L F m s l) (cfg : Cfg) (et : Str) (args : List Str) :
    Sim L F m (vecReplaceFirstFrom cfg et args s m) (Knuckle.vecReplaceFirstFrom cfg et l args) := by
  refine sim_arg3 h (fun a b c => ?_) args
  rw [run_bind]
  refine sim_shared h fun o p m1 _ st hn ho hs => ?_
  rw [run_bind]
  refine sim_shared st fun o' p' m2 _ st' hn' ho' hs' => ?_
  rw [run_bind]
  refine sim_lift st' fun i _ => ?_
  rw [value_bind, run_bind, reads_length st.reads]
  refine sim_lift st' fun _ _ => ?_
  rw [run_bind]
  have := replaceFirst_sim (eps := cfg.eps) (et := et) (b := c) (show m2.obj p = some o by rw [obj_congr (hs' p (by simp)), ho])
    (pre := s.take i.toNat) (pl := l.take i.toNat) (xs := s.drop i.toNat)
    (xl := l.drop i.toNat) (by simpa using st') (reads_take st'.reads _) (reads_drop st'.reads _)
  rw [List.take_append_drop, List.take_append_drop] at this
  exact this

theorem vecReplaceAll_sim (h : State L F m s l) (cfg : Cfg) (et : Str) (args : List Str) :
    Sim L F m (vecReplaceAll cfg et args s m) (Knuckle.vecReplaceAll cfg et l args) := by
  rcases args with _ | ⟨a, _ | ⟨b, _ | ⟨c, t⟩⟩⟩
  · exact sim_err h _
  · exact sim_err h _
  · have e : Knuckle.vecReplaceAll cfg et l [a, b] = thenRun l (getSharedInstance et a) fun o =>
        thenRun l (getSharedInstance et b) fun _ => replaceAllLoop cfg.eps et b o [] l := by
      unfold Knuckle.vecReplaceAll thenRun
      simp only
      cases getSharedInstance et a <;> cases getSharedInstance et b <;> rfl
    rw [e]
    refine sim_shared h fun o p m1 _ st hn ho hs => ?_
    refine sim_shared st fun o' p' m2 _ st' hn' ho' hs' => ?_
    rw [value_bind]
    exact replaceAll_sim (by rw [obj_congr (hs' p (by simp)), ho]) (by simp) (pre := []) (pl := []) st' reads_nil st'.reads
  · exact sim_err h _

/-! ### Sorting -/

theorem posSort_reads [PosSort] {α : Type} (lt : α → α → Bool) (keys : List α) (h : Reads m s l) :
    Reads m (posSort lt keys s) (posSort lt keys l) := by
  unfold Reads posSort
  rw [List.map_filterMap, List.map_filterMap]
  apply List.filterMap_congr
  intro i _
  exact reads_get h i

theorem filterMap_range {α : Type} (l : List α) : (List.range l.length).filterMap (l[·]?) = l := by
  have : (List.range l.length).filterMap (l[·]?) = ((List.range l.length).map fun i => l[i]?).filterMap id := by
    rw [List.filterMap_map]; rfl
  rw [this]
  have e : ((List.range l.length).map fun i => l[i]?) = l.map some := by
    apply List.ext_getElem
    · simp
    · intro i h1 h2
      simp at h1 h2 ⊢
      
  rw [e, List.filterMap_map]
  simp

/-- What the guards of `op_sort` say, for positions. -/
theorem swo_pos {lt : Obj → Obj → Bool} {l : List Obj} (h : ∀ a ∈ l, lt a a = false)
    (h1 : ∀ a ∈ l, ∀ b ∈ l, ∀ c ∈ l, lt a b = true → lt b c = true → lt a c = true)
    (h2 : ∀ a ∈ l, ∀ b ∈ l, ∀ c ∈ l, lt a b = false → lt b a = false → lt b c = false → lt c b = false →
      lt a c = false ∧ lt c a = false) :
    (∀ a < l.length, posLt lt l a a = false) ∧
    (∀ a < l.length, ∀ b < l.length, ∀ c < l.length, posLt lt l a b = true → posLt lt l b c = true → posLt lt l a c = true) ∧
    (∀ a < l.length, ∀ b < l.length, ∀ c < l.length, posLt lt l a b = false → posLt lt l b a = false → posLt lt l b c = false →
      posLt lt l c b = false → posLt lt l a c = false ∧ posLt lt l c a = false) := by
  have e : ∀ i j (hi : i < l.length) (hj : j < l.length), posLt lt l i j = lt l[i] l[j] := by
    intro i j hi hj
    simp [posLt, hi, hj]
  refine ⟨?_, ?_, ?_⟩
  · intro a ha
    rw [e a a ha ha]
    exact h _ (List.getElem_mem ha)
  · intro a ha b hb c hc
    rw [e a b ha hb, e b c hb hc, e a c ha hc]
    exact h1 _ (List.getElem_mem ha) _ (List.getElem_mem hb) _ (List.getElem_mem hc)
  · intro a ha b hb c hc
    rw [e a b ha hb, e b c hb hc, e a c ha hc, e b a hb ha, e c b hc hb, e c a hc ha]
    exact h2 _ (List.getElem_mem ha) _ (List.getElem_mem hb) _ (List.getElem_mem hc)

/-- `std::sort` on values, by the same algorithm. -/
@[reducible] def stdSortOf [PosSort] : StdSort where
  sort lt l := posSort lt l l
  perm lt l h h1 h2 := by
    obtain ⟨g, g1, g2⟩ := swo_pos h h1 h2
    have := (PosSort.perm l.length (posLt lt l) g g1 g2).filterMap (l[·]?)
    rw [filterMap_range] at this
    exact this
  sorted lt l h h1 h2 := by
    obtain ⟨g, g1, g2⟩ := swo_pos h h1 h2
    have hp := PosSort.perm l.length (posLt lt l) g g1 g2
    have := PosSort.sorted l.length (posLt lt l) g g1 g2
    unfold posSort
    rw [List.pairwise_filterMap]
    refine this.imp ?_
    intro i j hij a ha b hb
    simpa [posLt, ha, hb] using hij

theorem vecSort_sim [PosSort] (h : State L F m s l) (cfg : Cfg) (args : List Str) :
    Sim L F m (vecSort cfg args s m) (@Knuckle.vecSort stdSortOf cfg l args) := by
  refine sim_arg0 h ?_ args
  rw [value_bind, ok_bind (derefAll_ok h.reads s)]
  by_cases e1 : (!comparable cfg.eps l) = true
  · rw [if_pos e1, if_pos e1]; trivial
  · rw [if_neg e1, if_neg e1]
    by_cases e2 : swoOn (ltB cfg.eps) l = true
    · rw [if_pos e2, if_pos e2, assign_bind]
      have hp : (posSort (ltB cfg.eps) l s).Perm s := by
        have e3 := e2
        unfold swoOn at e3
        simp only [Bool.and_eq_true, List.all_eq_true, Bool.not_eq_eq_eq_not, Bool.not_true, Bool.or_eq_true] at e3
        obtain ⟨g, g1, g2⟩ := swo_pos (lt := ltB cfg.eps) (l := l) e3.1.1
          (fun a ha b hb c hc h1 h2 => by
            rcases e3.1.2 a ha b hb c hc with h3 | h3
            · rw [h1, h2] at h3; simp at h3
            · exact h3)
          (fun a ha b hb c hc h1 h2 h3 h4 => by
            rcases e3.2 a ha b hb c hc with h5 | h5
            · rw [h1, h2, h3, h4] at h5; simp at h5
            · exact h5)
        have := (PosSort.perm l.length (posLt (ltB cfg.eps) l) g g1 g2).filterMap (s[·]?)
        rw [← reads_length h.reads, filterMap_range] at this
        unfold posSort
        rw [← reads_length h.reads]
        exact this
      obtain ⟨m2, e2, st2, s2⟩ := shrink (s' := posSort (ltB cfg.eps) l s) (D := []) h
        (by intro a; simp only [held_addr, List.nil_append]; exact (hp.count_eq a).symm)
        (posSort_reads (ltB cfg.eps) l h.reads)
      cases e2
      exact sim_ok st2 _
    · rw [if_neg e2, if_neg e2]; trivial

theorem vector_sim [PosSort] (h : State L F m s l) (cfg : Cfg) (et name : Str) (args : List Str) :
    Sim L F m (dispatch (vectorTable cfg et) name args s m)
      (Knuckle.dispatch l (@Knuckle.vectorTable stdSortOf cfg et l) name args) := by
  refine sim_dispatch h name args ?_
  unfold vectorTable Knuckle.vectorTable
  refine .cons ⟨rfl, vecGet_sim h ..⟩ <| .cons ⟨rfl, vecIsEmpty_sim h ..⟩ <| .cons ⟨rfl, vecContains_sim h ..⟩ <|
    .cons ⟨rfl, vecContainsFrom_sim h ..⟩ <| .cons ⟨rfl, vecCount_sim h ..⟩ <| .cons ⟨rfl, vecAtIndex_sim h ..⟩ <|
    .cons ⟨rfl, vecFirstIndexOf_sim h ..⟩ <| .cons ⟨rfl, vecFirstIndexOfFrom_sim h ..⟩ <|
    .cons ⟨rfl, vecAllIndexesOf_sim h ..⟩ <| .cons ⟨rfl, listSize_sim h ..⟩ <| .cons ⟨rfl, vecFirst_sim h ..⟩ <|
    .cons ⟨rfl, vecLast_sim h ..⟩ <| .cons ⟨rfl, vecSlice_sim h ..⟩ <| .cons ⟨rfl, vecSliceTo_sim h ..⟩ <|
    .cons ⟨rfl, vecPushBack_sim h ..⟩ <| .cons ⟨rfl, vecPushFront_sim h ..⟩ <| .cons ⟨rfl, vecPopBack_sim h ..⟩ <|
    .cons ⟨rfl, vecPopFront_sim h ..⟩ <| .cons ⟨rfl, vecPopAtIndex_sim h ..⟩ <| .cons ⟨rfl, vecInsert_sim h ..⟩ <|
    .cons ⟨rfl, vecErase_sim h ..⟩ <| .cons ⟨rfl, vecEraseTo_sim h ..⟩ <| .cons ⟨rfl, vecRemoveFirst_sim h ..⟩ <|
    .cons ⟨rfl, vecRemoveFirstFrom_sim h ..⟩ <| .cons ⟨rfl, vecRemoveAll_sim h ..⟩ <|
    .cons ⟨rfl, vecReplaceFirst_sim h ..⟩ <| .cons ⟨rfl, vecReplaceFirstFrom_sim h ..⟩ <|
    .cons ⟨rfl, vecReplaceAll_sim h ..⟩ <| .cons ⟨rfl, vecSort_sim h ..⟩ <| .cons ⟨rfl, vecReverse_sim h ..⟩ <|
    .cons ⟨rfl, listClear_sim h ..⟩ .nil

end

end Knuckle.Heap

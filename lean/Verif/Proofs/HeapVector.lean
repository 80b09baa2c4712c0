import Verif.Proofs.Heap
import Verif.Proofs.Sort

namespace Knuckle.Heap

section
variable {ε τ : Type} [Entry ε τ] {L F : List Addr} {m : Mem} {s : List ε} {l : List τ}

theorem sim_arg0 (h : State L F m s l) {f : M (List ε) Str} {g : Res (List τ × Str)}
    (hf : Sim L F m (f s m) (Res.run l g)) (args : List Str) : Sim L F m (arg0 f args s m) (op0 l g args) := by
  rcases args with _ | ⟨a, t⟩
  · exact hf
  · exact sim_err h _

theorem sim_arg1 (h : State L F m s l) {f : Str → M (List ε) Str} {g : Str → Res (List τ × Str)}
    (hf : ∀ a, Sim L F m (f a s m) (Res.run l (g a))) (args : List Str) : Sim L F m (arg1 f args s m) (op1 l g args) := by
  rcases args with _ | ⟨a, _ | ⟨b, t⟩⟩
  · exact sim_err h _
  · exact hf a
  · exact sim_err h _

theorem sim_arg2 (h : State L F m s l) {f : Str → Str → M (List ε) Str} {g : Str → Str → Res (List τ × Str)}
    (hf : ∀ a b, Sim L F m (f a b s m) (Res.run l (g a b))) (args : List Str) :
    Sim L F m (arg2 f args s m) (op2 l g args) := by
  rcases args with _ | ⟨a, _ | ⟨b, _ | ⟨c, t⟩⟩⟩
  · exact sim_err h _
  · exact sim_err h _
  · exact hf a b
  · exact sim_err h _

theorem sim_arg3 (h : State L F m s l) {f : Str → Str → Str → M (List ε) Str} {g : Str → Str → Str → Res (List τ × Str)}
    (hf : ∀ a b c, Sim L F m (f a b c s m) (Res.run l (g a b c))) (args : List Str) :
    Sim L F m (arg3 f args s m) (op3 l g args) := by
  rcases args with _ | ⟨a, _ | ⟨b, _ | ⟨c, _ | ⟨d, t⟩⟩⟩⟩
  · exact sim_err h _
  · exact sim_err h _
  · exact sim_err h _
  · exact hf a b c
  · exact sim_err h _

theorem sim_dispatch (h : State L F m s l) (name : Str) (args : List Str) : ∀ {t : Table (List ε)} {t' : Knuckle.Table (List τ)},
    List.Forall₂ (fun r r' => r.1 = r'.1 ∧ Sim L F m (r.2 args s m) (r'.2 args)) t t' →
    Sim L F m (dispatch t name args s m) (Knuckle.dispatch l t' name args)
  | _, _, .nil => sim_err h _
  | (n, op) :: t, (n', op') :: t', .cons hr hs => by
    obtain ⟨rfl, hop⟩ := hr
    unfold dispatch Knuckle.dispatch
    by_cases e : name == n
    · rw [if_pos e, if_pos e]; exact hop
    · rw [if_neg e, if_neg e]; exact sim_dispatch h name args hs

end

theorem bind_congr' {σ α β : Type} {x y : M σ α} {s : σ} {m : Mem} (h : x s m = y s m) (f : α → M σ β) :
    (x >>= f) s m = (y >>= f) s m := by
  rw [bind_apply, bind_apply]; unfold M.bind; rw [h]

@[simp] theorem held_addr (s : List Addr) : held s = s := by
  simp [held, Entry.ptr]

/-! ### VectorInstance -/

section
variable {L F : List Addr} {m : Mem} {s : List Addr} {l : List Obj}

theorem vecContains_sim (h : State L F m s l) (cfg : Cfg) (et : Str) (args : List Str) :
    Sim L F m (vecContains cfg et args s m) (Knuckle.vecContains cfg et l args) := by
  refine sim_arg1 h (fun a => ?_) args
  rw [run_bind]
  refine sim_shared h fun o p m1 _ st hn ho hs => ?_
  rw [value_bind, bind_congr' (search_eq ho s 0 st.reads), run_bind]
  exact sim_lift st fun r _ => sim_ok st _

theorem vecContainsFrom_sim (h : State L F m s l) (cfg : Cfg) (et : Str) (args : List Str) :
    Sim L F m (vecContainsFrom cfg et args s m) (Knuckle.vecContainsFrom cfg et l args) := by
  refine sim_arg2 h (fun a b => ?_) args
  rw [run_bind]
  refine sim_shared h fun o p m1 _ st hn ho hs => ?_
  rw [run_bind]
  refine sim_lift st fun i _ => ?_
  rw [value_bind, run_bind, reads_length st.reads]
  refine sim_lift st fun _ _ => ?_
  rw [bind_congr' (search_eq ho s _ (reads_drop st.reads _)), run_bind]
  exact sim_lift st fun r _ => sim_ok st _

theorem vecCount_sim (h : State L F m s l) (cfg : Cfg) (et : Str) (args : List Str) :
    Sim L F m (vecCount cfg et args s m) (Knuckle.vecCount cfg et l args) := by
  refine sim_arg1 h (fun a => ?_) args
  rw [run_bind]
  refine sim_shared h fun o p m1 _ st hn ho hs => ?_
  rw [value_bind, bind_congr' (tally_eq ho s 0 st.reads), run_bind]
  exact sim_lift st fun r _ => sim_ok st _

theorem vecFirstIndexOf_sim (h : State L F m s l) (cfg : Cfg) (et : Str) (args : List Str) :
    Sim L F m (vecFirstIndexOf cfg et args s m) (Knuckle.vecFirstIndexOf cfg et l args) := by
  refine sim_arg1 h (fun a => ?_) args
  rw [run_bind]
  refine sim_shared h fun o p m1 _ st hn ho hs => ?_
  rw [value_bind, bind_congr' (search_eq ho s 0 st.reads), run_bind]
  exact sim_lift st fun r _ => sim_ok st _

theorem vecFirstIndexOfFrom_sim (h : State L F m s l) (cfg : Cfg) (et : Str) (args : List Str) :
    Sim L F m (vecFirstIndexOfFrom cfg et args s m) (Knuckle.vecFirstIndexOfFrom cfg et l args) := by
  refine sim_arg2 h (fun a b => ?_) args
  rw [run_bind]
  refine sim_shared h fun o p m1 _ st hn ho hs => ?_
  rw [run_bind]
  refine sim_lift st fun i _ => ?_
  rw [value_bind, run_bind, reads_length st.reads]
  refine sim_lift st fun _ _ => ?_
  rw [bind_congr' (search_eq ho s _ (reads_drop st.reads _)), run_bind]
  exact sim_lift st fun r _ => sim_ok st _

theorem vecAllIndexesOf_sim (h : State L F m s l) (cfg : Cfg) (et : Str) (args : List Str) :
    Sim L F m (vecAllIndexesOf cfg et args s m) (Knuckle.vecAllIndexesOf cfg et l args) := by
  refine sim_arg1 h (fun a => ?_) args
  rw [run_bind]
  refine sim_shared h fun o p m1 _ st hn ho hs => ?_
  rw [value_bind, bind_congr' (indexes_eq ho s 0 [] st.reads), run_bind]
  exact sim_lift st fun r _ => sim_ok st _

theorem text_ok {σ : Type} {p : Addr} {m : Mem} {o : Obj} (h : m.obj p = some o) (prec : Int) (s : σ) :
    (text prec p : M σ Str) s m = .ok (o.repr prec) s m := by
  unfold text
  rw [ok_bind (deref_ok h s)]; rfl

theorem vecAtIndex_sim (h : State L F m s l) (cfg : Cfg) (args : List Str) :
    Sim L F m (vecAtIndex cfg args s m) (Knuckle.vecAtIndex cfg l args) := by
  refine sim_arg1 h (fun a => ?_) args
  rw [run_bind]
  refine sim_lift h fun i _ => ?_
  rw [value_bind, run_bind, reads_length h.reads]
  refine sim_lift h fun _ _ => ?_
  have hg := reads_get h.reads i.toNat
  rcases e : s[i.toNat]? with _ | p
  · rw [e] at hg
    rcases e' : l[i.toNat]? with _ | o
    · trivial
    · rw [e'] at hg; cases hg
  · rw [e] at hg
    rcases e' : l[i.toNat]? with _ | o
    · rw [e'] at hg; cases hg
    · rw [e'] at hg
      have ho : m.obj p = some o := Option.some.inj hg
      simp only
      rw [text_ok ho]
      exact sim_ok h _

theorem vectorText_ok {σ : Type} {m : Mem} {ps : List Addr} {l : List Obj} (h : Reads m ps l) (prec : Int) (s : σ) :
    (vectorText prec ps : M σ Str) s m = .ok (vectorRepr prec l) s m := by
  unfold vectorText
  rw [ok_bind (derefAll_ok h s)]; rfl

end

theorem copyAll_ok {σ : Type} : ∀ {ps P : List Addr} {m : Mem}, Good m P → (∀ p ∈ ps, p ∈ P) →
    ∃ m', (∀ s : σ, (copyAll ps : M σ Unit) s m = .ok () s m') ∧ Good m' (ps ++ P) ∧ ∀ a, inst m' a = inst m a
  | [], P, m, h, _ => ⟨m, fun _ => rfl, h, fun _ => rfl⟩
  | p :: ps, P, m, h, hp => by
    obtain ⟨m1, e1, g1, s1⟩ := good_copy h (hp p (by simp))
    obtain ⟨m2, e2, g2, s2⟩ := copyAll_ok (σ := σ) (ps := ps) g1 (fun q hq => by simp [hp q (by simp [hq])])
    refine ⟨m2, ?_, good_congr g2 ?_, fun a => (s2 a).trans (s1 a)⟩
    · intro s
      unfold copyAll
      rw [ok_bind (copy_ok e1 s)]
      exact e2 s
    · intro a
      simp only [List.count_append, List.count_cons]
      omega

section
variable {ε τ : Type} [Entry ε τ] {L F : List Addr} {m : Mem} {s : List ε} {l : List τ}

/-- A temporary vector of copies is destroyed after its text is made. -/
theorem temporary_sim (h : State L F m s l) {ps : List Addr} {os : List Obj} (hp : ∀ p ∈ ps, p ∈ held s) (hr : Reads m ps os)
    (prec : Int) : Sim L F m (temporary ps (vectorText prec ps) s m) (.ret l (vectorRepr prec os)) := by
  obtain ⟨m1, e1, g1, s1⟩ := copyAll_ok (σ := List ε) h.good (fun p hx => List.mem_append_left _ (hp p hx))
  unfold temporary
  rw [ok_bind (e1 s)]
  have hr1 : Reads m1 ps os := reads_congr hr fun a _ => s1 a
  unfold scope
  rw [vectorText_ok hr1]
  obtain ⟨m2, e2, st, sa⟩ := settle (L := L) (F := F) (D := ps) g1 (fun _ => rfl)
    (by intro p hx; rw [obj_congr (s1 p)]; exact reads_objs h.reads p (hp p hx)) h.nodup
    (reads_congr h.reads fun a _ => s1 a)
  simp only [e2]
  exact ⟨rfl, st, fun a ha => (sa a (List.mem_append_right _ ha)).trans (s1 a)⟩

end

section
variable {L F : List Addr} {m : Mem} {s : List Addr} {l : List Obj}

theorem vecGet_sim (h : State L F m s l) (cfg : Cfg) (args : List Str) :
    Sim L F m (vecGet cfg args s m) (op0 l (.ok (l, vectorRepr cfg.prec l)) args) := by
  refine sim_arg0 h ?_ args
  rw [value_bind, vectorText_ok h.reads]
  exact sim_ok h _

theorem vecIsEmpty_sim (h : State L F m s l) (args : List Str) :
    Sim L F m (vecIsEmpty args s m) (op0 l (.ok (l, boolStr (l.length == 0))) args) := by
  refine sim_arg0 h ?_ args
  rw [value_bind, reads_length h.reads]
  exact sim_ok h _

theorem listSize_sim (h : State L F m s l) (args : List Str) :
    Sim L F m (listSize args s m) (op0 l (.ok (l, intStr l.length)) args) := by
  refine sim_arg0 h ?_ args
  rw [value_bind, reads_length h.reads]
  exact sim_ok h _

theorem vecFirst_sim (h : State L F m s l) (cfg : Cfg) (args : List Str) :
    Sim L F m (vecFirst cfg args s m) (Knuckle.vecFirst cfg l args) := by
  refine sim_arg1 h (fun a => ?_) args
  rw [run_bind]
  refine sim_lift h fun n _ => ?_
  by_cases hn : n < 0
  · rw [if_pos hn, if_pos hn]; exact sim_err h _
  · rw [if_neg hn, if_neg hn, value_bind, reads_length h.reads]
    exact temporary_sim h (fun p hp => by rw [held_addr]; exact List.mem_of_mem_take hp) (reads_take h.reads _) _

theorem vecLast_sim (h : State L F m s l) (cfg : Cfg) (args : List Str) :
    Sim L F m (vecLast cfg args s m) (Knuckle.vecLast cfg l args) := by
  refine sim_arg1 h (fun a => ?_) args
  rw [run_bind]
  refine sim_lift h fun n _ => ?_
  by_cases hn : n < 0
  · rw [if_pos hn, if_pos hn]; exact sim_err h _
  · rw [if_neg hn, if_neg hn, value_bind, reads_length h.reads]
    exact temporary_sim h (fun p hp => by rw [held_addr]; exact List.mem_of_mem_drop hp) (reads_drop h.reads _) _

theorem vecSlice_sim (h : State L F m s l) (cfg : Cfg) (args : List Str) :
    Sim L F m (vecSlice cfg args s m) (Knuckle.vecSlice cfg l args) := by
  refine sim_arg1 h (fun a => ?_) args
  rw [run_bind]
  refine sim_lift h fun i _ => ?_
  rw [value_bind, run_bind, reads_length h.reads]
  refine sim_lift h fun _ _ => ?_
  exact temporary_sim h (fun p hp => by rw [held_addr]; exact List.mem_of_mem_drop hp) (reads_drop h.reads _) _

theorem vecSliceTo_sim (h : State L F m s l) (cfg : Cfg) (args : List Str) :
    Sim L F m (vecSliceTo cfg args s m) (Knuckle.vecSliceTo cfg l args) := by
  refine sim_arg2 h (fun a b => ?_) args
  rw [run_bind]
  refine sim_lift h fun i _ => ?_
  rw [run_bind]
  refine sim_lift h fun j _ => ?_
  rw [value_bind, run_bind, reads_length h.reads]
  refine sim_lift h fun _ _ => ?_
  exact temporary_sim h (fun p hp => by rw [held_addr]; exact List.mem_of_mem_take (List.mem_of_mem_drop hp))
    (reads_drop (reads_take h.reads _) _) _

end

section
variable {ε τ : Type} [Entry ε τ] {L F : List Addr} {m : Mem} {s s' : List ε} {l l' : List τ}

/-- Adding a copy of a local pointer to the container. -/
theorem grow {p : Addr} (h : State (p :: L) F m s l) (hn : p ∉ held s ++ (L ++ F))
    (hp : ∀ a, (held s').count a = (p :: held s).count a) (hr : Reads m s' l') :
    ∃ m', m.copy p = some m' ∧ State (p :: L) F m' s' l' ∧ ∀ a, inst m' a = inst m a := by
  obtain ⟨m1, e1, g1, s1⟩ := good_copy (p := p) h.good (by simp)
  refine ⟨m1, e1, ⟨good_congr g1 ?_, ?_, reads_congr hr fun a _ => s1 a⟩, s1⟩
  · intro a
    have := hp a
    simp only [List.count_append, List.count_cons] at this ⊢
    omega
  · have : (held s' ++ F).Perm (p :: (held s ++ F)) := by
      rw [List.perm_iff_count]
      intro a
      have := hp a
      simp only [List.count_append, List.count_cons] at this ⊢
      omega
    rw [this.nodup_iff, List.nodup_cons]
    exact ⟨fun hx => hn (by simp at hx ⊢; tauto), h.nodup⟩

/-- Removing pointers from the container. -/
theorem shrink {D : List Addr} (h : State L F m s l) (hp : ∀ a, (held s).count a = (D ++ held s').count a)
    (hr : Reads m s' l') :
    ∃ m', m.dropAll D = some m' ∧ State L F m' s' l' ∧ Same m m' (held s' ++ (L ++ F)) := by
  refine settle h.good ?_ ?_ ?_ hr
  · intro a
    have := hp a
    simp only [List.count_append] at this ⊢
    omega
  · intro p hx
    apply reads_objs h.reads p
    rw [← List.count_pos_iff, hp p, List.count_append]
    have := List.count_pos_iff.2 hx
    omega
  · have : (held s ++ F).Perm (D ++ (held s' ++ F)) := by
      rw [List.perm_iff_count]
      intro a
      have := hp a
      simp only [List.count_append] at this ⊢
      omega
    exact (List.nodup_append.1 ((this.nodup_iff).1 h.nodup)).2.1

theorem sim_all {out : Out (List ε) Str} {r : Run (List τ)} {m1 : Mem} (h : Sim L F m1 out r) (hs : ∀ a, inst m1 a = inst m a) :
    Sim L F m out r := sim_same h fun a _ => hs a

end

theorem count_take_drop {α : Type} [DecidableEq α] (s : List α) (n : Nat) (a : α) :
    s.count a = (s.take n).count a + (s.drop n).count a := by
  conv_lhs => rw [← List.take_append_drop n s]
  rw [List.count_append]

theorem count_take_drop_drop {α : Type} [DecidableEq α] (s : List α) {i j : Nat} (hij : i ≤ j) (a : α) :
    s.count a = (s.take i).count a + ((s.take j).drop i).count a + (s.drop j).count a := by
  rw [count_take_drop s j, count_take_drop (s.take j) i, List.take_take, Nat.min_eq_left hij]

section
variable {L F : List Addr} {m : Mem} {s : List Addr} {l : List Obj}

theorem vecPushBack_sim (h : State L F m s l) (et : Str) (args : List Str) :
    Sim L F m (vecPushBack et args s m) (Knuckle.vecPushBack et l args) := by
  refine sim_arg1 h (fun a => ?_) args
  rw [run_bind]
  refine sim_shared h fun o p m1 _ st hn ho hs => ?_
  obtain ⟨m2, e2, st2, s2⟩ := grow (s' := s ++ [p]) (l' := l ++ [o]) st hn
    (by intro a; simp only [held_addr, List.count_append, List.count_cons, List.count_nil]; omega)
    (reads_append st.reads (reads_cons ho reads_nil))
  rw [value_bind, ok_bind (copy_ok e2 s), assign_bind]
  exact sim_all (sim_ok st2 _) s2

theorem vecPushFront_sim (h : State L F m s l) (et : Str) (args : List Str) :
    Sim L F m (vecPushFront et args s m) (Knuckle.vecPushFront et l args) := by
  refine sim_arg1 h (fun a => ?_) args
  rw [run_bind]
  refine sim_shared h fun o p m1 _ st hn ho hs => ?_
  obtain ⟨m2, e2, st2, s2⟩ := grow (s' := p :: s) (l' := o :: l) st hn
    (by intro a; simp only [held_addr])
    (reads_cons ho st.reads)
  rw [value_bind, ok_bind (copy_ok e2 s), assign_bind]
  exact sim_all (sim_ok st2 _) s2

theorem vecInsert_sim (h : State L F m s l) (et : Str) (args : List Str) :
    Sim L F m (vecInsert et args s m) (Knuckle.vecInsert et l args) := by
  refine sim_arg2 h (fun a b => ?_) args
  rw [run_bind]
  refine sim_shared h fun o p m1 _ st hn ho hs => ?_
  rw [run_bind]
  refine sim_lift st fun i _ => ?_
  rw [value_bind, run_bind, reads_length st.reads]
  refine sim_lift st fun _ _ => ?_
  obtain ⟨m2, e2, st2, s2⟩ := grow (s' := s.take i.toNat ++ p :: s.drop i.toNat)
    (l' := l.take i.toNat ++ o :: l.drop i.toNat) st hn
    (by intro a
        have := count_take_drop s i.toNat a
        simp only [held_addr, List.count_append, List.count_cons]; omega)
    (reads_append (reads_take st.reads _) (reads_cons ho (reads_drop st.reads _)))
  rw [ok_bind (copy_ok e2 s), assign_bind]
  exact sim_all (sim_ok st2 _) s2

theorem takeOut_sim (h : State L F m s l) {p : Addr} {o : Obj} {rest : List Addr} {l' : List Obj} (hp : m.obj p = some o)
    (hc : ∀ a, s.count a = (p :: rest).count a) (hr : Reads m rest l') (prec : Int) :
    Sim L F m (takeOut prec p rest s m) (.ret l' (o.repr prec)) := by
  have hmem : p ∈ s := by
    rw [← List.count_pos_iff, hc p]; simp
  obtain ⟨m1, e1, g1, s1⟩ := good_copy h.good (p := p) (by simp [hmem])
  unfold takeOut
  rw [ok_bind (copy_ok e1 s)]
  have st1 : State (p :: L) F m1 s l := ⟨good_congr g1 (by
    intro a; simp only [List.count_append, List.count_cons]; omega), h.nodup, reads_congr h.reads fun a _ => s1 a⟩
  obtain ⟨m2, e2, st2, s2⟩ := shrink (s' := rest) (l' := l') (D := [p]) st1 (by intro a; simpa using hc a)
    (reads_congr hr fun a _ => s1 a)
  refine sim_all (sim_scope (by rw [obj_congr (s1 p), hp]; rfl) ?_) s1
  rw [assign_bind, ok_bind (dropAll_ok e2 rest),
    text_ok (show m2.obj p = some o by rw [obj_congr (s2 p (by simp)), obj_congr (s1 p), hp])]
  exact ⟨rfl, st2, s2.mono (by intro a ha; simp at ha ⊢; tauto)⟩

theorem vecPopBack_sim (h : State L F m s l) (cfg : Cfg) (args : List Str) :
    Sim L F m (vecPopBack cfg args s m) (Knuckle.vecPopBack cfg l args) := by
  refine sim_arg0 h ?_ args
  rw [value_bind, reads_length h.reads]
  by_cases e0 : (l.length == 0) = true
  · rw [if_pos e0, if_pos e0]; exact sim_ok h _
  · rw [if_neg e0, if_neg e0]
    have hg := reads_get h.reads (l.length - 1)
    have hlen := reads_length h.reads
    have h0 : 0 < l.length := by
      simp only [beq_iff_eq] at e0; omega
    rcases e : s[l.length - 1]? with _ | p
    · rw [List.getElem?_eq_none_iff] at e; omega
    · rw [e] at hg
      rcases e' : l[l.length - 1]? with _ | o
      · rw [e'] at hg; cases hg
      · rw [e'] at hg
        refine takeOut_sim h (Option.some.inj hg) ?_ (reads_take h.reads _) _
        intro a
        have hd : s.drop (l.length - 1) = [p] := by
          have hlt : l.length - 1 < s.length := by omega
          rw [List.drop_eq_getElem_cons hlt, List.drop_eq_nil_of_le (by omega)]
          rw [List.getElem?_eq_getElem hlt] at e
          cases e; rfl
        have := count_take_drop s (l.length - 1) a
        rw [hd] at this
        simp only [List.count_cons, List.count_nil] at this ⊢
        omega

theorem vecPopFront_sim (h : State L F m s l) (cfg : Cfg) (args : List Str) :
    Sim L F m (vecPopFront cfg args s m) (Knuckle.vecPopFront cfg l args) := by
  refine sim_arg0 h ?_ args
  rw [value_bind, reads_length h.reads]
  by_cases e0 : (l.length == 0) = true
  · rw [if_pos e0, if_pos e0]; exact sim_ok h _
  · rw [if_neg e0, if_neg e0]
    rcases s with _ | ⟨p, s⟩
    · have := reads_length h.reads
      simp at this e0
      exact absurd (List.eq_nil_of_length_eq_zero this.symm) e0
    · obtain ⟨o, l, rfl, ho, hr⟩ := reads_cons_inv h.reads
      exact takeOut_sim h ho (fun a => rfl) hr _

theorem vecPopAtIndex_sim (h : State L F m s l) (cfg : Cfg) (args : List Str) :
    Sim L F m (vecPopAtIndex cfg args s m) (Knuckle.vecPopAtIndex cfg l args) := by
  refine sim_arg1 h (fun a => ?_) args
  rw [run_bind]
  refine sim_lift h fun i _ => ?_
  rw [value_bind, run_bind, reads_length h.reads]
  refine sim_lift h fun _ _ => ?_
  have hg := reads_get h.reads i.toNat
  rcases e : s[i.toNat]? with _ | p
  · rw [e] at hg
    rcases e' : l[i.toNat]? with _ | o
    · trivial
    · rw [e'] at hg; cases hg
  · rw [e] at hg
    rcases e' : l[i.toNat]? with _ | o
    · rw [e'] at hg; cases hg
    · rw [e'] at hg
      refine takeOut_sim h (Option.some.inj hg) ?_ (reads_append (reads_take h.reads _) (reads_drop h.reads _)) _
      intro a
      have hlt : i.toNat < s.length := (List.getElem?_eq_some_iff.1 e).1
      have hd : s.drop i.toNat = p :: s.drop (i.toNat + 1) := by
        rw [List.drop_eq_getElem_cons hlt]
        rw [List.getElem?_eq_getElem hlt] at e
        cases e; rfl
      have := count_take_drop s i.toNat a
      rw [hd] at this
      simp only [List.count_append, List.count_cons] at this ⊢
      omega

theorem vecErase_sim (h : State L F m s l) (args : List Str) :
    Sim L F m (vecErase args s m) (Knuckle.vecErase l args) := by
  refine sim_arg1 h (fun a => ?_) args
  rw [run_bind]
  refine sim_lift h fun i _ => ?_
  rw [value_bind, run_bind, reads_length h.reads]
  refine sim_lift h fun _ _ => ?_
  obtain ⟨m2, e2, st2, s2⟩ := shrink (s' := s.take i.toNat) (D := s.drop i.toNat) h
    (by intro a
        have := count_take_drop s i.toNat a
        simp only [held_addr, List.count_append]; omega)
    (reads_take h.reads _)
  rw [assign_bind, ok_bind (dropAll_ok e2 _)]
  exact ⟨rfl, st2, s2.mono (by intro a ha; simp at ha ⊢; tauto)⟩

theorem checkRange_le {n : Nat} {i j : Int} {u : Unit} (h : checkRange n i j = .ok u) : i.toNat ≤ j.toNat := by
  unfold checkRange at h
  split at h
  · cases h
  · split at h
    · cases h
    · split at h
      · cases h
      · omega

theorem vecEraseTo_sim (h : State L F m s l) (args : List Str) :
    Sim L F m (vecEraseTo args s m) (Knuckle.vecEraseTo l args) := by
  refine sim_arg2 h (fun a b => ?_) args
  rw [run_bind]
  refine sim_lift h fun i _ => ?_
  rw [run_bind]
  refine sim_lift h fun j _ => ?_
  rw [value_bind, run_bind, reads_length h.reads]
  refine sim_lift h fun _ hc => ?_
  obtain ⟨m2, e2, st2, s2⟩ := shrink (s' := s.take i.toNat ++ s.drop j.toNat) (D := (s.take j.toNat).drop i.toNat) h
    (by intro a
        have := count_take_drop_drop s (checkRange_le hc) a
        simp only [held_addr, List.count_append]; omega)
    (reads_append (reads_take h.reads _) (reads_drop h.reads _))
  rw [assign_bind, ok_bind (dropAll_ok e2 _)]
  exact ⟨rfl, st2, s2.mono (by intro a ha; simp at ha ⊢; tauto)⟩

theorem vecReverse_sim (h : State L F m s l) (args : List Str) :
    Sim L F m (vecReverse args s m) (op0 l (.ok (l.reverse, b!"null")) args) := by
  refine sim_arg0 h ?_ args
  rw [value_bind, assign_bind]
  obtain ⟨m2, e2, st2, s2⟩ := shrink (s' := s.reverse) (D := []) h
    (by intro a; simp only [held_addr, List.nil_append, List.count_reverse])
    (reads_reverse h.reads)
  cases e2
  exact sim_ok st2 _

theorem listClear_sim (h : State L F m s l) (args : List Str) :
    Sim L F m (listClear args s m) (op0 l (.ok ([], b!"null")) args) := by
  refine sim_arg0 h ?_ args
  obtain ⟨m2, e2, st2, s2⟩ := shrink (s' := []) (D := s) h
    (by intro a; simp only [held_addr, List.append_nil])
    reads_nil
  rw [value_bind, assign_bind, ok_bind (dropAll_ok e2 _)]
  exact ⟨rfl, st2, s2.mono (by intro a ha; simp at ha ⊢; tauto)⟩

end

end Knuckle.Heap

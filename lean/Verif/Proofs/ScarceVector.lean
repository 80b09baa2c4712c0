import Verif.Proofs.Scarce

namespace Knuckle.Scarce

open Spec (CutShort)
open Heap (Addr Cell Mem PosSort posSort pairPtrs locate ptrLt HCtx cellOf store Good Same State Reads Entry held thenRun
  inst obj_congr reads_length reads_congr reads_nil reads_cons reads_append reads_cons_inv reads_take reads_drop reads_get reads_objs
  same_refl good_congr good_copy good_new settle obj_inst run_bind held_addr grow shrink count_take_drop count_take_drop_drop
  reads_reverse)

/-! ### VectorInstance -/

section
variable {A : Allowed (List Obj)} {L F : List Addr} {m : Mem} {s : List Addr} {l : List Obj} {f : Supply} {C : Prop}

theorem vecContains_sim (h : State L F m s l) (hf : Fed A.short f) (hA : A.part l) (cfg : Cfg) (et : Str) (args : List Str) :
    Sim A L F m (vecContains cfg et args s m f) (Knuckle.vecContains cfg et l args) := by
  refine sim_arg1 h hf (fun a _ => ?_)
  rw [run_bind]
  refine sim_shared h hf hA fun o p m1 f _ hf st hn ho hs => ?_
  rw [value_bind, run_bind]
  exact sim_calm st hf hA (search_calm ho 0 st.reads) fun r f _ hf => sim_ok st hf _

theorem vecContainsFrom_sim (h : State L F m s l) (hf : Fed A.short f) (hA : A.part l) (cfg : Cfg) (et : Str) (args : List Str) :
    Sim A L F m (vecContainsFrom cfg et args s m f) (Knuckle.vecContainsFrom cfg et l args) := by
  refine sim_arg2 h hf (fun a b _ => ?_)
  rw [run_bind]
  refine sim_shared h hf hA fun o p m1 f _ hf st hn ho hs => ?_
  rw [run_bind]
  refine sim_lift st hf fun i _ => ?_
  rw [value_bind, run_bind, reads_length st.reads]
  refine sim_lift st hf fun _ _ => ?_
  rw [run_bind]
  exact sim_calm st hf hA (search_calm ho _ (reads_drop st.reads _)) fun r f _ hf => sim_ok st hf _

theorem vecCount_sim (h : State L F m s l) (hf : Fed A.short f) (hA : A.part l) (cfg : Cfg) (et : Str) (args : List Str) :
    Sim A L F m (vecCount cfg et args s m f) (Knuckle.vecCount cfg et l args) := by
  refine sim_arg1 h hf (fun a _ => ?_)
  rw [run_bind]
  refine sim_shared h hf hA fun o p m1 f _ hf st hn ho hs => ?_
  rw [value_bind, run_bind]
  exact sim_calm st hf hA (tally_calm ho 0 st.reads) fun r f _ hf => sim_ok st hf _

theorem vecFirstIndexOf_sim (h : State L F m s l) (hf : Fed A.short f) (hA : A.part l) (cfg : Cfg) (et : Str) (args : List Str) :
    Sim A L F m (vecFirstIndexOf cfg et args s m f) (Knuckle.vecFirstIndexOf cfg et l args) := by
  refine sim_arg1 h hf (fun a _ => ?_)
  rw [run_bind]
  refine sim_shared h hf hA fun o p m1 f _ hf st hn ho hs => ?_
  rw [value_bind, run_bind]
  exact sim_calm st hf hA (search_calm ho 0 st.reads) fun r f _ hf => sim_ok st hf _

theorem vecFirstIndexOfFrom_sim (h : State L F m s l) (hf : Fed A.short f) (hA : A.part l) (cfg : Cfg) (et : Str)
    (args : List Str) : Sim A L F m (vecFirstIndexOfFrom cfg et args s m f) (Knuckle.vecFirstIndexOfFrom cfg et l args) := by
  refine sim_arg2 h hf (fun a b _ => ?_)
  rw [run_bind]
  refine sim_shared h hf hA fun o p m1 f _ hf st hn ho hs => ?_
  rw [run_bind]
  refine sim_lift st hf fun i _ => ?_
  rw [value_bind, run_bind, reads_length st.reads]
  refine sim_lift st hf fun _ _ => ?_
  rw [run_bind]
  exact sim_calm st hf hA (search_calm ho _ (reads_drop st.reads _)) fun r f _ hf => sim_ok st hf _

theorem vecAllIndexesOf_sim (h : State L F m s l) (hf : Fed A.short f) (hA : A.part l) (cfg : Cfg) (et : Str) (args : List Str) :
    Sim A L F m (vecAllIndexesOf cfg et args s m f) (Knuckle.vecAllIndexesOf cfg et l args) := by
  refine sim_arg1 h hf (fun a _ => ?_)
  rw [run_bind]
  refine sim_shared h hf hA fun o p m1 f _ hf st hn ho hs => ?_
  rw [value_bind, run_bind]
  exact sim_calm st hf hA (indexes_calm ho 0 [] st.reads) fun r f _ hf => sim_alloc st hf hA fun f hf => sim_ok st hf _

theorem vecAtIndex_sim (h : State L F m s l) (hf : Fed A.short f) (hA : A.part l) (cfg : Cfg) (hc : Cuts A C cfg.prec)
    (hC : ∀ x, .float x ∈ l → C) (args : List Str) :
    Sim A L F m (vecAtIndex cfg args s m f) (Knuckle.vecAtIndex cfg l args) := by
  refine sim_arg1 h hf (fun a _ => ?_)
  rw [run_bind]
  refine sim_lift h hf fun i _ => ?_
  rw [value_bind, run_bind, reads_length h.reads]
  refine sim_lift h hf fun _ _ => ?_
  have hg := reads_get h.reads i.toNat
  rcases e : s[i.toNat]? with _ | p
  · rw [e] at hg
    rcases e' : l[i.toNat]? with _ | o
    · rfl
    · rw [e'] at hg; cases hg
  · rw [e] at hg
    rcases e' : l[i.toNat]? with _ | o
    · rw [e'] at hg; cases hg
    · rw [e'] at hg
      have ho : m.obj p = some o := Option.some.inj hg
      simp only
      exact sim_reply h hf hA hc (text_quiet ho cfg.prec fun x ex => hC x (ex ▸ List.mem_of_getElem? e'))

theorem vecGet_sim (h : State L F m s l) (hf : Fed A.short f) (hA : A.part l) (cfg : Cfg) (hc : Cuts A C cfg.prec)
    (hC : ∀ x, .float x ∈ l → C) (args : List Str) :
    Sim A L F m (vecGet cfg args s m f) (op0 l (.ok (l, vectorRepr cfg.prec l)) args) := by
  refine sim_arg0 h hf ?_ args
  rw [value_bind]
  exact sim_reply h hf hA hc (vectorText_quiet cfg.prec h.reads hC)

theorem vecIsEmpty_sim (h : State L F m s l) (hf : Fed A.short f) (args : List Str) :
    Sim A L F m (vecIsEmpty args s m f) (op0 l (.ok (l, boolStr (l.length == 0))) args) := by
  refine sim_arg0 h hf ?_ args
  rw [value_bind, reads_length h.reads]
  exact sim_ok h hf _

theorem listSize_sim (h : State L F m s l) (hf : Fed A.short f) (args : List Str) :
    Sim A L F m (listSize args s m f) (op0 l (.ok (l, intStr l.length)) args) := by
  refine sim_arg0 h hf ?_ args
  rw [value_bind, reads_length h.reads]
  exact sim_ok h hf _

theorem vecFirst_sim (h : State L F m s l) (hf : Fed A.short f) (hA : A.part l) (cfg : Cfg) (hc : Cuts A C cfg.prec)
    (hC : ∀ x, .float x ∈ l → C) (args : List Str) :
    Sim A L F m (vecFirst cfg args s m f) (Knuckle.vecFirst cfg l args) := by
  refine sim_arg1 h hf (fun a _ => ?_)
  rw [run_bind]
  refine sim_lift h hf fun n _ => ?_
  by_cases hn : n < 0
  · rw [if_pos hn, if_pos hn]; exact sim_err h hf _
  · rw [if_neg hn, if_neg hn, value_bind, reads_length h.reads]
    exact temporary_sim h hf hA hc (fun p hp => by rw [held_addr]; exact List.mem_of_mem_take hp) (reads_take h.reads _)
      fun x hx => hC x (List.mem_of_mem_take hx)

theorem vecLast_sim (h : State L F m s l) (hf : Fed A.short f) (hA : A.part l) (cfg : Cfg) (hc : Cuts A C cfg.prec)
    (hC : ∀ x, .float x ∈ l → C) (args : List Str) :
    Sim A L F m (vecLast cfg args s m f) (Knuckle.vecLast cfg l args) := by
  refine sim_arg1 h hf (fun a _ => ?_)
  rw [run_bind]
  refine sim_lift h hf fun n _ => ?_
  by_cases hn : n < 0
  · rw [if_pos hn, if_pos hn]; exact sim_err h hf _
  · rw [if_neg hn, if_neg hn, value_bind, reads_length h.reads]
    exact temporary_sim h hf hA hc (fun p hp => by rw [held_addr]; exact List.mem_of_mem_drop hp) (reads_drop h.reads _)
      fun x hx => hC x (List.mem_of_mem_drop hx)

theorem vecSlice_sim (h : State L F m s l) (hf : Fed A.short f) (hA : A.part l) (cfg : Cfg) (hc : Cuts A C cfg.prec)
    (hC : ∀ x, .float x ∈ l → C) (args : List Str) :
    Sim A L F m (vecSlice cfg args s m f) (Knuckle.vecSlice cfg l args) := by
  refine sim_arg1 h hf (fun a _ => ?_)
  rw [run_bind]
  refine sim_lift h hf fun i _ => ?_
  rw [value_bind, run_bind, reads_length h.reads]
  refine sim_lift h hf fun _ _ => ?_
  exact temporary_sim h hf hA hc (fun p hp => by rw [held_addr]; exact List.mem_of_mem_drop hp) (reads_drop h.reads _)
    fun x hx => hC x (List.mem_of_mem_drop hx)

theorem vecSliceTo_sim (h : State L F m s l) (hf : Fed A.short f) (hA : A.part l) (cfg : Cfg) (hc : Cuts A C cfg.prec)
    (hC : ∀ x, .float x ∈ l → C) (args : List Str) :
    Sim A L F m (vecSliceTo cfg args s m f) (Knuckle.vecSliceTo cfg l args) := by
  refine sim_arg2 h hf (fun a b _ => ?_)
  rw [run_bind]
  refine sim_lift h hf fun i _ => ?_
  rw [run_bind]
  refine sim_lift h hf fun j _ => ?_
  rw [value_bind, run_bind, reads_length h.reads]
  refine sim_lift h hf fun _ _ => ?_
  exact temporary_sim h hf hA hc (fun p hp => by rw [held_addr]; exact List.mem_of_mem_take (List.mem_of_mem_drop hp))
    (reads_drop (reads_take h.reads _) _) fun x hx => hC x (List.mem_of_mem_take (List.mem_of_mem_drop hx))

theorem vecPushBack_sim (h : State L F m s l) (hf : Fed A.short f) (hA : A.part l) (et : Str) (args : List Str) :
    Sim A L F m (vecPushBack et args s m f) (Knuckle.vecPushBack et l args) := by
  refine sim_arg1 h hf (fun a _ => ?_)
  rw [run_bind]
  refine sim_shared h hf hA fun o p m1 f _ hf st hn ho hs => ?_
  rw [value_bind]
  refine sim_alloc st hf hA fun f hf => ?_
  obtain ⟨m2, e2, st2, s2⟩ := grow (s' := s ++ [p]) (l' := l ++ [o]) st hn
    (by intro a; simp only [held_addr, List.count_append, List.count_cons, List.count_nil]; omega)
    (reads_append st.reads (reads_cons ho reads_nil))
  rw [ok_bind (copy_ok e2 s f), assign_bind]
  exact sim_all (sim_ok st2 hf _) s2

theorem vecPushFront_sim (h : State L F m s l) (hf : Fed A.short f) (hA : A.part l) (et : Str) (args : List Str) :
    Sim A L F m (vecPushFront et args s m f) (Knuckle.vecPushFront et l args) := by
  refine sim_arg1 h hf (fun a _ => ?_)
  rw [run_bind]
  refine sim_shared h hf hA fun o p m1 f _ hf st hn ho hs => ?_
  rw [value_bind]
  refine sim_alloc st hf hA fun f hf => ?_
  obtain ⟨m2, e2, st2, s2⟩ := grow (s' := p :: s) (l' := o :: l) st hn
    (by intro a; simp only [held_addr])
    (reads_cons ho st.reads)
  rw [ok_bind (copy_ok e2 s f), assign_bind]
  exact sim_all (sim_ok st2 hf _) s2

theorem vecInsert_sim (h : State L F m s l) (hf : Fed A.short f) (hA : A.part l) (et : Str) (args : List Str) :
    Sim A L F m (vecInsert et args s m f) (Knuckle.vecInsert et l args) := by
  refine sim_arg2 h hf (fun a b _ => ?_)
  rw [run_bind]
  refine sim_shared h hf hA fun o p m1 f _ hf st hn ho hs => ?_
  rw [run_bind]
  refine sim_lift st hf fun i _ => ?_
  rw [value_bind, run_bind, reads_length st.reads]
  refine sim_lift st hf fun _ _ => ?_
  refine sim_alloc st hf hA fun f hf => ?_
  obtain ⟨m2, e2, st2, s2⟩ := grow (s' := s.take i.toNat ++ p :: s.drop i.toNat)
    (l' := l.take i.toNat ++ o :: l.drop i.toNat) st hn
    (by intro a
        have := count_take_drop s i.toNat a
        simp only [held_addr, List.count_append, List.count_cons]; omega)
    (reads_append (reads_take st.reads _) (reads_cons ho (reads_drop st.reads _)))
  rw [ok_bind (copy_ok e2 s f), assign_bind]
  exact sim_all (sim_ok st2 hf _) s2

/-- The text of the object takes memory. -/
def Texty (o : Obj) : Prop := (∃ x, o = .string x) ∨ ∃ x, o = .float x

theorem text_free {p : Addr} {o : Obj} (h : m.obj p = some o) (ho : ¬ Texty o) (prec : Int) :
    (text prec p : M (List Addr) Str) s m f = .ok (o.repr prec) s m f := by
  unfold text
  rw [ok_bind (deref_ok h s f)]
  cases o with
  | float x => exact absurd (.inr ⟨x, rfl⟩) ho
  | string x => exact absurd (.inl ⟨x, rfl⟩) ho
  | _ => rfl

theorem takeOut_sim (h : State L F m s l) (hf : Fed A.short f) {p : Addr} {o : Obj} {rest : List Addr} {l' : List Obj}
    (hA : Texty o → A.part l') (hp : m.obj p = some o) (hc : ∀ a, s.count a = (p :: rest).count a) (hr : Reads m rest l') (prec : Int)
    (hcut : Cuts A C prec) (hC : ∀ x, o = .float x → C) :
    Sim A L F m (takeOut prec p rest s m f) (.ret l' (o.repr prec)) := by
  have hmem : p ∈ s := by
    rw [← List.count_pos_iff, hc p]; simp
  obtain ⟨m1, e1, g1, s1⟩ := good_copy h.good (p := p) (by simp [hmem])
  unfold takeOut
  rw [ok_bind (copy_ok e1 s f)]
  have st1 : State (p :: L) F m1 s l := ⟨good_congr g1 (by
    intro a; simp only [List.count_append, List.count_cons]; omega), h.nodup, reads_congr h.reads fun a _ => s1 a⟩
  obtain ⟨m2, e2, st2, s2⟩ := shrink (s' := rest) (l' := l') (D := [p]) st1 (by intro a; simpa using hc a)
    (reads_congr hr fun a _ => s1 a)
  refine sim_all (sim_scope (ps := [p]) (by intro q hq; simp only [List.mem_singleton] at hq; rw [hq, obj_congr (s1 p), hp]; rfl) ?_) s1
  rw [assign_bind, ok_bind (dropAll_ok e2 rest f)]
  have hp2 : m2.obj p = some o := by rw [obj_congr (s2 p (by simp)), obj_congr (s1 p), hp]
  refine sim_same (m1 := m2) ?_ ?_
  · by_cases ht : Texty o
    · exact sim_reply (C := C) st2 hf (hA ht) hcut (text_quiet hp2 prec hC)
    · rw [text_free hp2 ht]
      exact sim_ok st2 hf _
  exact s2.mono (by intro a ha; simp at ha ⊢; tauto)

theorem vecPopBack_sim (h : State L F m s l) (hf : Fed A.short f) (cfg : Cfg) (args : List Str)
    (hA : (∃ o ∈ l, Texty o) → ∀ l' r, Knuckle.vecPopBack cfg l args = .ret l' r → A.part l') (hc : Cuts A C cfg.prec) (hC : ∀ x, .float x ∈ l → C) :
    Sim A L F m (vecPopBack cfg args s m f) (Knuckle.vecPopBack cfg l args) := by
  rcases args with _ | ⟨a, t⟩
  swap
  · exact sim_err h hf _
  change Sim A L F m ((value >>= _) s m f) _
  rw [value_bind, reads_length h.reads]
  change _ → ∀ l' r, Res.run l (if l.length == 0 then _ else _) = .ret l' r → _ at hA
  change Sim A L F m _ (Res.run l (if l.length == 0 then _ else _))
  by_cases e0 : (l.length == 0) = true
  · rw [if_pos e0, if_pos e0]; exact sim_ok h hf _
  · rw [if_neg e0, if_neg e0]
    rw [if_neg e0] at hA
    have hg := reads_get h.reads (l.length - 1)
    have hlen := reads_length h.reads
    have h0 : 0 < l.length := by
      simp only [beq_iff_eq] at e0; omega
    rcases e : s[l.length - 1]? with _ | p
    · rw [List.getElem?_eq_none_iff] at e; omega
    · rw [e] at hg
      rcases e' : l[l.length - 1]? with _ | o
      · rw [e'] at hg; cases hg
      · rw [e'] at hg hA
        refine takeOut_sim h hf (fun ht => hA ⟨o, List.mem_of_getElem? e', ht⟩ _ _ rfl) (Option.some.inj hg) ?_ (reads_take h.reads _) _ hc
          fun x ex => hC x (ex ▸ List.mem_of_getElem? e')
        intro a
        have hd : s.drop (l.length - 1) = [p] := by
          have hlt : l.length - 1 < s.length := by omega
          rw [List.drop_eq_getElem_cons hlt, List.drop_eq_nil_of_le (by omega)]
          rw [List.getElem?_eq_getElem hlt] at e
          cases e; rfl
        have := count_take_drop s (l.length - 1) a
        rw [hd] at this
        simp only [List.count_cons, List.count_nil] at this ⊢
        omega

theorem vecPopFront_sim (h : State L F m s l) (hf : Fed A.short f) (cfg : Cfg) (args : List Str)
    (hA : (∃ o ∈ l, Texty o) → ∀ l' r, Knuckle.vecPopFront cfg l args = .ret l' r → A.part l') (hc : Cuts A C cfg.prec) (hC : ∀ x, .float x ∈ l → C) :
    Sim A L F m (vecPopFront cfg args s m f) (Knuckle.vecPopFront cfg l args) := by
  rcases args with _ | ⟨a, t⟩
  swap
  · exact sim_err h hf _
  change Sim A L F m ((value >>= _) s m f) _
  rw [value_bind, reads_length h.reads]
  change _ → ∀ l' r, Res.run l (if l.length == 0 then _ else _) = .ret l' r → _ at hA
  change Sim A L F m _ (Res.run l (if l.length == 0 then _ else _))
  by_cases e0 : (l.length == 0) = true
  · rw [if_pos e0, if_pos e0]; exact sim_ok h hf _
  · rw [if_neg e0, if_neg e0]
    rw [if_neg e0] at hA
    rcases s with _ | ⟨p, s⟩
    · have := reads_length h.reads
      simp at this e0
      exact absurd (List.eq_nil_of_length_eq_zero this.symm) e0
    · obtain ⟨o, l, rfl, ho, hr⟩ := reads_cons_inv h.reads
      exact takeOut_sim h hf (fun ht => hA ⟨o, by simp, ht⟩ _ _ rfl) ho (fun a => rfl) hr _ hc fun x ex => hC x (by simp [ex])

theorem vecPopAtIndex_sim (h : State L F m s l) (hf : Fed A.short f) (cfg : Cfg) (args : List Str)
    (hA : (∃ o ∈ l, Texty o) → ∀ l' r, Knuckle.vecPopAtIndex cfg l args = .ret l' r → A.part l') (hc : Cuts A C cfg.prec)
    (hC : ∀ x, .float x ∈ l → C) :
    Sim A L F m (vecPopAtIndex cfg args s m f) (Knuckle.vecPopAtIndex cfg l args) := by
  refine sim_arg1 h hf (fun a ea => ?_)
  subst ea
  rw [run_bind]
  refine sim_lift h hf fun i ei => ?_
  rw [value_bind, run_bind, reads_length h.reads]
  refine sim_lift h hf fun u eu => ?_
  have hg := reads_get h.reads i.toNat
  rcases e : s[i.toNat]? with _ | p
  · rw [e] at hg
    rcases e' : l[i.toNat]? with _ | o
    · rfl
    · rw [e'] at hg; cases hg
  · rw [e] at hg
    rcases e' : l[i.toNat]? with _ | o
    · rw [e'] at hg; cases hg
    · rw [e'] at hg
      refine takeOut_sim h hf (fun ht => hA ⟨o, List.mem_of_getElem? e', ht⟩ (l.take i.toNat ++ l.drop (i.toNat + 1)) (o.repr cfg.prec) ?_) (Option.some.inj hg) ?_
        (reads_append (reads_take h.reads _) (reads_drop h.reads _)) _ hc fun x ex => hC x (ex ▸ List.mem_of_getElem? e')
      · simp only [Knuckle.vecPopAtIndex, op1, ei, Res.bind_ok, eu, e', Res.run]
      intro a
      have hlt : i.toNat < s.length := (List.getElem?_eq_some_iff.1 e).1
      have hd : s.drop i.toNat = p :: s.drop (i.toNat + 1) := by
        rw [List.drop_eq_getElem_cons hlt]
        rw [List.getElem?_eq_getElem hlt] at e
        cases e; rfl
      have := count_take_drop s i.toNat a
      rw [hd] at this
      simp only [List.count_append, List.count_cons] at this ⊢
      omega

theorem vecErase_sim (h : State L F m s l) (hf : Fed A.short f) (args : List Str) :
    Sim A L F m (vecErase args s m f) (Knuckle.vecErase l args) := by
  refine sim_arg1 h hf (fun a _ => ?_)
  rw [run_bind]
  refine sim_lift h hf fun i _ => ?_
  rw [value_bind, run_bind, reads_length h.reads]
  refine sim_lift h hf fun _ _ => ?_
  obtain ⟨m2, e2, st2, s2⟩ := shrink (s' := s.take i.toNat) (D := s.drop i.toNat) h
    (by intro a
        have := count_take_drop s i.toNat a
        simp only [held_addr, List.count_append]; omega)
    (reads_take h.reads _)
  rw [assign_bind, ok_bind (dropAll_ok e2 _ f)]
  exact sim_ok' st2 (s2.mono (by intro a ha; simp at ha ⊢; tauto)) hf _

theorem vecEraseTo_sim (h : State L F m s l) (hf : Fed A.short f) (args : List Str) :
    Sim A L F m (vecEraseTo args s m f) (Knuckle.vecEraseTo l args) := by
  refine sim_arg2 h hf (fun a b _ => ?_)
  rw [run_bind]
  refine sim_lift h hf fun i _ => ?_
  rw [run_bind]
  refine sim_lift h hf fun j _ => ?_
  rw [value_bind, run_bind, reads_length h.reads]
  refine sim_lift h hf fun _ hc => ?_
  obtain ⟨m2, e2, st2, s2⟩ := shrink (s' := s.take i.toNat ++ s.drop j.toNat) (D := (s.take j.toNat).drop i.toNat) h
    (by intro a
        have := count_take_drop_drop s (Heap.checkRange_le hc) a
        simp only [held_addr, List.count_append]; omega)
    (reads_append (reads_take h.reads _) (reads_drop h.reads _))
  rw [assign_bind, ok_bind (dropAll_ok e2 _ f)]
  exact sim_ok' st2 (s2.mono (by intro a ha; simp at ha ⊢; tauto)) hf _

theorem vecReverse_sim (h : State L F m s l) (hf : Fed A.short f) (args : List Str) :
    Sim A L F m (vecReverse args s m f) (op0 l (.ok (l.reverse, b!"null")) args) := by
  refine sim_arg0 h hf ?_ args
  rw [value_bind, assign_bind]
  obtain ⟨m2, e2, st2, s2⟩ := shrink (s' := s.reverse) (D := []) h
    (by intro a; simp only [held_addr, List.nil_append, List.count_reverse])
    (reads_reverse h.reads)
  cases e2
  exact sim_ok st2 hf _

theorem listClear_sim (h : State L F m s l) (hf : Fed A.short f) (args : List Str) :
    Sim A L F m (listClear args s m f) (op0 l (.ok ([], b!"null")) args) := by
  refine sim_arg0 h hf ?_ args
  obtain ⟨m2, e2, st2, s2⟩ := shrink (s' := []) (D := s) h
    (by intro a; simp only [held_addr, List.append_nil])
    reads_nil
  rw [value_bind, assign_bind, ok_bind (dropAll_ok e2 _ f)]
  exact sim_ok' st2 (s2.mono (by intro a ha; simp at ha ⊢; tauto)) hf _

end

/-! ### Loops that change the vector -/

section
variable {A : Allowed (List Obj)} {L F : List Addr} {m : Mem} {s : List Addr} {l : List Obj}

theorem equal_cases {σ β : Type} {S : Prop} {m : Mem} {p q : Addr} {a b : Obj} (hp : m.obj p = some a) (hq : m.obj q = some b) (eps : Fl)
    (k : Bool → M σ β) (s : σ) {f : Supply} (hf : Fed S f) :
    (∃ f', Fed S f' ∧ (equal eps p q >>= k) s m f = (lift (equalTo eps a b) >>= k) s m f') ∨
      ∃ f', Fed S f' ∧ S ∧ (equal eps p q >>= k) s m f = .oom s m f' := by
  rcases equal_calm (S := S) (s := s) hp hq eps f hf with ⟨f', h', e⟩ | ⟨f', h', hS, e⟩
  · exact .inl ⟨f', h', bind_congr' e k⟩
  · exact .inr ⟨f', h', hS, oom_bind e k⟩

theorem equal_strings {σ β : Type} {S : Prop} {m : Mem} {p q : Addr} {a b : Obj} (hp : m.obj p = some a) (hq : m.obj q = some b)
    (eps : Fl) (k : Bool → M σ β) (s : σ) {f : Supply} (hf : Fed S f) :
    (∃ f', Fed S f' ∧ (equal eps p q >>= k) s m f = (lift (equalTo eps a b) >>= k) s m f') ∨
      ∃ f', Fed S f' ∧ S ∧ (∃ x, b = .string x) ∧ (equal eps p q >>= k) s m f = .oom s m f' := by
  by_cases h : ∃ x, b = .string x
  · rcases equal_cases hp hq eps k s hf with h1 | ⟨f', h1, h2, h3⟩
    · exact .inl h1
    · exact .inr ⟨f', h1, h2, h, h3⟩
  · refine .inl ⟨f, hf, bind_congr' ?_ k⟩
    unfold equal
    rw [ok_bind (deref_ok hp s f), ok_bind (deref_ok hq s f)]
    cases b with
    | string x => exact absurd ⟨x, rfl⟩ h
    | _ => rfl

theorem removeFirst_sim {eps : Fl} {p : Addr} {o : Obj} (hp : m.obj p = some o) : ∀ {xs pre : List Addr} {xl pl : List Obj}
    {f : Supply}, Fed A.short f → A.part (pl ++ xl) →
    State L F m (pre ++ xs) (pl ++ xl) → Reads m pre pl → Reads m xs xl →
    Sim A L F m ((removeFirst eps p pre xs >>= fun _ => pure b!"null") (pre ++ xs) m f)
      (thenRun (pl ++ xl) (removeFirstLoop eps o pl xl) fun r => .ret r b!"null")
  | [], pre, xl, pl, f, hf, hA, h, hpre, hxs => by
    have : xl = [] := List.eq_nil_of_length_eq_zero (reads_length hxs).symm
    subst this
    rw [List.append_nil, List.append_nil] at h
    rw [List.append_nil, List.append_nil]
    exact sim_ok h hf _
  | x :: xs, pre, xl, pl, f, hf, hA, h, hpre, hxs => by
    obtain ⟨a, xl, rfl, ha, hr⟩ := reads_cons_inv hxs
    unfold removeFirst removeFirstLoop
    rcases equal_cases ha hp eps _ (pre ++ x :: xs) hf with ⟨f', hf', e⟩ | ⟨f', hf', hS, e⟩
    · rw [bind_congr' (f' := f') e, bind_assoc', lift_bind]
      rcases equalTo eps a o with (_ | _) | ex | _
      · have := removeFirst_sim (eps := eps) hp (xs := xs) (pre := pre ++ [x]) (xl := xl) (pl := pl ++ [a]) hf' (by simpa using hA)
          (by simpa using h) (reads_append hpre (reads_cons ha reads_nil)) hr
        simpa using this
      · obtain ⟨m2, e2, st2, s2⟩ := shrink (s' := pre ++ xs) (l' := pl ++ xl) (D := [x]) h
          (by intro a; simp only [held_addr, List.count_append, List.count_cons, List.count_nil]; omega)
          (reads_append hpre hr)
        simp only [if_true]
        rw [bind_assoc', assign_bind, ok_bind (dropAll_ok e2 _ f')]
        exact sim_ok' st2 (s2.mono (by intro a ha; simp at ha ⊢; tauto)) hf' _
      · exact sim_err h hf' _
      · rfl
    · rw [oom_bind e]
      exact sim_oom h hf' hS hA _

theorem removeAll_sim {eps : Fl} {p : Addr} {o : Obj} : ∀ {xs pre : List Addr} {xl pl : List Obj} {m : Mem} {f : Supply},
    Fed A.short f → ((∃ x, o = .string x) → ∀ k l' r, removeAllLoop eps o pl (xl.take k) = .ret l' r → A.part (l' ++ xl.drop k)) →
    m.obj p = some o → p ∈ L →
    State L F m (pre ++ xs) (pl ++ xl) → Reads m pre pl → Reads m xs xl →
    Sim A L F m ((removeAll eps p pre xs >>= fun _ => pure b!"null") (pre ++ xs) m f) (removeAllLoop eps o pl xl)
  | [], pre, xl, pl, m, f, hf, hA, hp, hL, h, hpre, hxs => by
    have : xl = [] := List.eq_nil_of_length_eq_zero (reads_length hxs).symm
    subst this
    rw [List.append_nil, List.append_nil] at h
    rw [List.append_nil]
    exact sim_ok h hf _
  | x :: xs, pre, xl, pl, m, f, hf, hA, hp, hL, h, hpre, hxs => by
    obtain ⟨a, xl, rfl, ha, hr⟩ := reads_cons_inv hxs
    unfold removeAll
    rcases equal_strings ha hp eps _ (pre ++ x :: xs) hf with ⟨f', hf', e⟩ | ⟨f', hf', hS, ho, e⟩
    · rw [bind_congr' (f' := f') e, bind_assoc', lift_bind]
      have hA' : (∃ x, o = .string x) → ∀ k l' r, removeAllLoop eps o pl (a :: xl.take k) = .ret l' r → A.part (l' ++ xl.drop k) :=
        fun ho k => hA ho (k + 1)
      unfold removeAllLoop
      unfold removeAllLoop at hA'
      generalize equalTo eps a o = eq at hA' ⊢
      rcases eq with (_ | _) | ex | _
      · have := removeAll_sim (xs := xs) (pre := pre ++ [x]) (xl := xl) (pl := pl ++ [a]) (eps := eps) hf' hA' hp hL
          (by simpa using h) (reads_append hpre (reads_cons ha reads_nil)) hr
        simpa using this
      · obtain ⟨m2, e2, st2, s2⟩ := shrink (s' := pre ++ xs) (l' := pl ++ xl) (D := [x]) h
          (by intro a; simp only [held_addr, List.count_append, List.count_cons, List.count_nil]; omega)
          (reads_append hpre hr)
        simp only [if_true]
        rw [bind_assoc', assign_bind, bind_assoc', ok_bind (dropAll_ok e2 _ f')]
        have := removeAll_sim (eps := eps) (p := p) (o := o) hf' hA' (by rw [obj_congr (s2 p (by simp [hL])), hp]) hL st2
          (reads_congr hpre (s2.mono (by intro a ha; simp at ha ⊢; tauto)))
          (reads_congr hr (s2.mono (by intro a ha; simp at ha ⊢; tauto)))
        exact sim_same this (s2.mono (by intro a ha; simp at ha ⊢; tauto))
      · exact sim_err h hf' _
      · rfl
    · rw [oom_bind e]
      exact sim_oom h hf' hS (hA ho 0 pl _ rfl) _

theorem replaceFirst_sim {eps : Fl} {et b : Str} {p : Addr} {o : Obj} (hp : m.obj p = some o) :
    ∀ {xs pre : List Addr} {xl pl : List Obj} {f : Supply}, Fed A.short f → A.part (pl ++ xl) →
    State L F m (pre ++ xs) (pl ++ xl) → Reads m pre pl → Reads m xs xl →
    Sim A L F m ((replaceFirst eps et b p pre xs >>= fun _ => pure b!"null") (pre ++ xs) m f)
      (thenRun (pl ++ xl) (replaceFirstLoop eps et b o pl xl) fun r => .ret r b!"null")
  | [], pre, xl, pl, f, hf, hA, h, hpre, hxs => by
    have : xl = [] := List.eq_nil_of_length_eq_zero (reads_length hxs).symm
    subst this
    rw [List.append_nil, List.append_nil] at h
    rw [List.append_nil, List.append_nil]
    exact sim_ok h hf _
  | x :: xs, pre, xl, pl, f, hf, hA, h, hpre, hxs => by
    obtain ⟨a, xl, rfl, ha, hr⟩ := reads_cons_inv hxs
    unfold replaceFirst replaceFirstLoop
    rcases equal_cases ha hp eps _ (pre ++ x :: xs) hf with ⟨f', hf', e⟩ | ⟨f', hf', hS, e⟩
    · rw [bind_congr' (f' := f') e, bind_assoc', lift_bind]
      rcases equalTo eps a o with (_ | _) | ex | _
      · have := replaceFirst_sim (eps := eps) hp (xs := xs) (pre := pre ++ [x]) (xl := xl) (pl := pl ++ [a]) (et := et) (b := b)
          hf' (by simpa using hA) (by simpa using h) (reads_append hpre (reads_cons ha reads_nil)) hr
        simpa using this
      · simp only [if_true]
        rw [bind_assoc']
        rcases newShared_cases (S := A.short) et b (pre ++ x :: xs) m hf' with ⟨f1, h1, e1⟩ | ⟨f1, h1, hS, e1⟩
        · rcases eg : getSharedInstance et b with n | ex | _
          · rw [eg] at e1
            obtain ⟨q, m2, rfl, e2, st2, s2, ho2⟩ := Heap.replace_one (n := n) h hpre hr
            rw [ok_bind e1, bind_assoc', assign_bind, ok_bind (dropAll_ok e2 _ f1)]
            exact sim_ok' st2 (s2.mono (by intro a ha; simp at ha ⊢; tauto)) h1 _
          · rw [eg] at e1
            rw [bind_apply]; unfold M.bind; rw [e1]
            exact sim_err h h1 _
          · rw [eg] at e1
            rw [bind_apply]; unfold M.bind; rw [e1]
            rfl
        · rw [oom_bind e1]
          exact sim_oom h h1 hS hA _
      · exact sim_err h hf' _
      · rfl
    · rw [oom_bind e]
      exact sim_oom h hf' hS hA _

theorem replaceAll_sim {eps : Fl} {et b : Str} {p : Addr} {o : Obj} :
    ∀ {xs pre : List Addr} {xl pl : List Obj} {m : Mem} {f : Supply},
    Fed A.short f → (∀ k l' r, replaceAllLoop eps et b o pl (xl.take k) = .ret l' r → A.part (l' ++ xl.drop k)) →
    m.obj p = some o → p ∈ L →
    State L F m (pre ++ xs) (pl ++ xl) → Reads m pre pl → Reads m xs xl →
    Sim A L F m ((replaceAll eps et b p pre xs >>= fun _ => pure b!"null") (pre ++ xs) m f)
      (replaceAllLoop eps et b o pl xl)
  | [], pre, xl, pl, m, f, hf, hA, hp, hL, h, hpre, hxs => by
    have : xl = [] := List.eq_nil_of_length_eq_zero (reads_length hxs).symm
    subst this
    rw [List.append_nil, List.append_nil] at h
    rw [List.append_nil]
    exact sim_ok h hf _
  | x :: xs, pre, xl, pl, m, f, hf, hA, hp, hL, h, hpre, hxs => by
    obtain ⟨a, xl, rfl, ha, hr⟩ := reads_cons_inv hxs
    have hA0 : A.part (pl ++ a :: xl) := hA 0 pl _ rfl
    have hA' : ∀ k l' r, replaceAllLoop eps et b o pl (a :: xl.take k) = .ret l' r → A.part (l' ++ xl.drop k) :=
      fun k => hA (k + 1)
    unfold replaceAll
    rcases equal_cases ha hp eps _ (pre ++ x :: xs) hf with ⟨f', hf', e⟩ | ⟨f', hf', hS, e⟩
    · rw [bind_congr' (f' := f') e, bind_assoc', lift_bind]
      unfold replaceAllLoop
      unfold replaceAllLoop at hA'
      generalize equalTo eps a o = eq at hA' ⊢
      rcases eq with (_ | _) | ex | _
      · have := replaceAll_sim (xs := xs) (pre := pre ++ [x]) (xl := xl) (pl := pl ++ [a]) (eps := eps) (et := et) (b := b)
          hf' hA' hp hL (by simpa using h) (reads_append hpre (reads_cons ha reads_nil)) hr
        simpa using this
      · simp only [if_true]
        rw [bind_assoc']
        rcases newShared_cases (S := A.short) et b (pre ++ x :: xs) m hf' with ⟨f1, h1, e1⟩ | ⟨f1, h1, hS, e1⟩
        · rcases eg : getSharedInstance et b with n | ex | _
          · rw [eg] at e1
            rw [eg] at hA'
            obtain ⟨q, m2, rfl, e2, st2, s2, ho2⟩ := Heap.replace_one (n := n) h hpre hr
            rw [ok_bind e1, bind_assoc', assign_bind, bind_assoc', ok_bind (dropAll_ok e2 _ f1)]
            have := replaceAll_sim (xs := xs) (pre := pre ++ [(m.new (.obj n)).1]) (xl := xl) (pl := pl ++ [n]) (eps := eps)
              (et := et) (b := b) h1 hA' (show m2.obj p = some o by rw [obj_congr (s2 p (by simp [hL])), hp]) hL
              (by simpa using st2)
              (reads_append (reads_congr hpre (s2.mono (by intro a ha; simp at ha ⊢; tauto))) (reads_cons ho2 reads_nil))
              (reads_congr hr (s2.mono (by intro a ha; simp at ha ⊢; tauto)))
            refine sim_same (m1 := m2) ?_ (s2.mono (by intro a ha; simp at ha ⊢; tauto))
            simpa using this
          · rw [eg] at e1
            rw [bind_apply]; unfold M.bind; rw [e1]
            exact sim_err h h1 _
          · rw [eg] at e1
            rw [bind_apply]; unfold M.bind; rw [e1]
            rfl
        · rw [oom_bind e1]
          exact sim_oom h h1 hS hA0 _
      · exact sim_err h hf' _
      · rfl
    · rw [oom_bind e]
      exact sim_oom h hf' hS hA0 _

variable {f : Supply}

theorem vecRemoveFirst_sim (h : State L F m s l) (hf : Fed A.short f) (hA : A.part l) (cfg : Cfg) (et : Str) (args : List Str) :
    Sim A L F m (vecRemoveFirst cfg et args s m f) (Knuckle.vecRemoveFirst cfg et l args) := by
  refine sim_arg1 h hf (fun a _ => ?_)
  rw [run_bind]
  refine sim_shared h hf hA fun o p m1 f _ hf st hn ho hs => ?_
  rw [value_bind, run_bind]
  exact removeFirst_sim ho (pre := []) (pl := []) hf hA st reads_nil st.reads

theorem vecRemoveFirstFrom_sim (h : State L F m s l) (hf : Fed A.short f) (hA : A.part l) (cfg : Cfg) (et : Str) (args : List Str) :
    Sim A L F m (vecRemoveFirstFrom cfg et args s m f) (Knuckle.vecRemoveFirstFrom cfg et l args) := by
  refine sim_arg2 h hf (fun a b _ => ?_)
  rw [run_bind]
  refine sim_shared h hf hA fun o p m1 f _ hf st hn ho hs => ?_
  rw [run_bind]
  refine sim_lift st hf fun i _ => ?_
  rw [value_bind, run_bind, reads_length st.reads]
  refine sim_lift st hf fun _ _ => ?_
  rw [run_bind]
  have := removeFirst_sim (A := A) (eps := cfg.eps) ho (pre := s.take i.toNat) (pl := l.take i.toNat) (xs := s.drop i.toNat)
    (xl := l.drop i.toNat) hf (by simpa using hA) (by simpa using st) (reads_take st.reads _) (reads_drop st.reads _)
  rw [List.take_append_drop, List.take_append_drop] at this
  exact this

theorem part_zero {g : List Obj → Run (List Obj)} (hA : ∀ k l' r, g (l.take k) = .ret l' r → A.part (l' ++ l.drop k)) {r : Str}
    (h : g [] = .ret [] r) : A.part l := by
  have := hA 0 [] r (by rw [List.take_zero]; exact h)
  simpa using this

theorem removeAll_run (cfg : Cfg) (et : Str) (l : List Obj) (a : Str) :
    Knuckle.vecRemoveAll cfg et l [a] = thenRun l (getSharedInstance et a) fun o => removeAllLoop cfg.eps o [] l := by
  unfold Knuckle.vecRemoveAll thenRun
  simp only
  cases getSharedInstance et a <;> rfl

theorem replaceAll_run (cfg : Cfg) (et : Str) (l : List Obj) (a b : Str) :
    Knuckle.vecReplaceAll cfg et l [a, b] = thenRun l (getSharedInstance et a) fun o =>
        thenRun l (getSharedInstance et b) fun _ => replaceAllLoop cfg.eps et b o [] l := by
  unfold Knuckle.vecReplaceAll thenRun
  simp only
  cases getSharedInstance et a <;> cases getSharedInstance et b <;> rfl

theorem vecRemoveAll_sim (h : State L F m s l) (hf : Fed A.short f) (hA : A.part l) (cfg : Cfg) (et : Str) (args : List Str)
    (hP : ∀ a x, args = [a] → getSharedInstance et a = .ok (.string x) →
      ∀ k l' r, Knuckle.vecRemoveAll cfg et (l.take k) args = .ret l' r → A.part (l' ++ l.drop k)) :
    Sim A L F m (vecRemoveAll cfg et args s m f) (Knuckle.vecRemoveAll cfg et l args) := by
  rcases args with _ | ⟨a, _ | ⟨b, t⟩⟩
  · exact sim_err h hf _
  · rw [removeAll_run]
    refine sim_shared h hf hA (k := fun o => removeAllLoop cfg.eps o [] l) fun o p m1 f eo hf st hn ho hs => ?_
    rw [value_bind]
    refine removeAll_sim hf ?_ ho (by simp) (pre := []) (pl := []) st reads_nil st.reads
    rintro ⟨x, rfl⟩ k l' r hr
    refine hP a x rfl eo k l' r ?_
    rw [removeAll_run, eo]
    exact hr
  · exact sim_err h hf _

theorem vecReplaceFirst_sim (h : State L F m s l) (hf : Fed A.short f) (hA : A.part l) (cfg : Cfg) (et : Str) (args : List Str) :
    Sim A L F m (vecReplaceFirst cfg et args s m f) (Knuckle.vecReplaceFirst cfg et l args) := by
  refine sim_arg2 h hf (fun a b _ => ?_)
  rw [run_bind]
  refine sim_shared h hf hA fun o p m1 f _ hf st hn ho hs => ?_
  rw [run_bind]
  refine sim_shared st hf hA fun o' p' m2 f _ hf st' hn' ho' hs' => ?_
  rw [value_bind, run_bind]
  exact replaceFirst_sim (by rw [obj_congr (hs' p (by simp)), ho]) (pre := []) (pl := []) hf hA st' reads_nil st'.reads

theorem vecReplaceFirstFrom_sim (h : State L F m s l) (hf : Fed A.short f) (hA : A.part l) (cfg : Cfg) (et : Str) (args : List Str) :
    Sim A L F m (vecReplaceFirstFrom cfg et args s m f) (Knuckle.vecReplaceFirstFrom cfg et l args) := by
  refine sim_arg3 h hf (fun a b c _ => ?_)
  rw [run_bind]
  refine sim_shared h hf hA fun o p m1 f _ hf st hn ho hs => ?_
  rw [run_bind]
  refine sim_shared st hf hA fun o' p' m2 f _ hf st' hn' ho' hs' => ?_
  rw [run_bind]
  refine sim_lift st' hf fun i _ => ?_
  rw [value_bind, run_bind, reads_length st.reads]
  refine sim_lift st' hf fun _ _ => ?_
  rw [run_bind]
  have := replaceFirst_sim (A := A) (eps := cfg.eps) (et := et) (b := c)
    (show m2.obj p = some o by rw [obj_congr (hs' p (by simp)), ho])
    (pre := s.take i.toNat) (pl := l.take i.toNat) (xs := s.drop i.toNat)
    (xl := l.drop i.toNat) hf (by simpa using hA) (by simpa using st') (reads_take st'.reads _) (reads_drop st'.reads _)
  rw [List.take_append_drop, List.take_append_drop] at this
  exact this

theorem vecReplaceAll_sim (h : State L F m s l) (hf : Fed A.short f) (hA : A.part l) (cfg : Cfg) (et : Str) (args : List Str)
    (hP : ∀ k l' r, Knuckle.vecReplaceAll cfg et (l.take k) args = .ret l' r → A.part (l' ++ l.drop k)) :
    Sim A L F m (vecReplaceAll cfg et args s m f) (Knuckle.vecReplaceAll cfg et l args) := by
  rcases args with _ | ⟨a, _ | ⟨b, _ | ⟨c, t⟩⟩⟩
  · exact sim_err h hf _
  · exact sim_err h hf _
  · rw [replaceAll_run]
    refine sim_shared h hf hA fun o p m1 f eo hf st hn ho hs => ?_
    refine sim_shared st hf hA fun o' p' m2 f eo' hf st' hn' ho' hs' => ?_
    rw [value_bind]
    refine replaceAll_sim hf ?_ (by rw [obj_congr (hs' p (by simp)), ho]) (by simp) (pre := []) (pl := []) st' reads_nil st'.reads
    intro k l' r hr
    refine hP k l' r ?_
    rw [replaceAll_run, eo, eo']
    exact hr
  · exact sim_err h hf _

theorem vecSort_sim [PosSort] (h : State L F m s l) (hf : Fed A.short f) (cfg : Cfg) (args : List Str)
    (hR : args = [] → (∃ x y l', l = .string x :: y :: l') → A.ruin) :
    Sim A L F m (vecSort cfg args s m f) (@Knuckle.vecSort Heap.stdSortOf cfg l args) := by
  rcases args with _ | ⟨a, t⟩
  swap
  · exact sim_err h hf _
  change Sim A L F m ((value >>= _) s m f) (Res.run l _)
  rw [value_bind, ok_bind (derefAll_ok h.reads s f)]
  by_cases e1 : (!comparable cfg.eps l) = true
  · rw [if_pos e1, if_pos e1]; rfl
  · rw [if_neg e1, if_neg e1]
    by_cases e2 : swoOn (ltB cfg.eps) l = true
    · rw [if_pos e2, if_pos e2]
      have hp : (posSort (ltB cfg.eps) l s).Perm s := by
        have e3 := e2
        unfold swoOn at e3
        simp only [Bool.and_eq_true, List.all_eq_true, Bool.not_eq_eq_eq_not, Bool.not_true, Bool.or_eq_true] at e3
        obtain ⟨g, g1, g2⟩ := Heap.swo_pos (lt := ltB cfg.eps) (l := l) e3.1.1
          (fun a ha b hb c hc h1 h2 => by
            rcases e3.1.2 a ha b hb c hc with h3 | h3
            · rw [h1, h2] at h3; simp at h3
            · exact h3)
          (fun a ha b hb c hc h1 h2 h3 h4 => by
            rcases e3.2 a ha b hb c hc with h5 | h5
            · rw [h1, h2, h3, h4] at h5; simp at h5
            · exact h5)
        have := (PosSort.perm l.length (Heap.posLt (ltB cfg.eps) l) g g1 g2).filterMap (s[·]?)
        rw [← reads_length h.reads, Heap.filterMap_range] at this
        unfold posSort
        rw [← reads_length h.reads]
        exact this
      obtain ⟨m2, e2, st2, s2⟩ := shrink (s' := posSort (ltB cfg.eps) l s) (D := []) h
        (by intro a; simp only [held_addr, List.nil_append]; exact (hp.count_eq a).symm)
        (Heap.posSort_reads (ltB cfg.eps) l h.reads)
      cases e2
      have fin : ∀ f', Fed A.short f' → Sim A L F m ((assign (posSort (ltB cfg.eps) l s) >>= fun _ => pure b!"null") s m f')
          (.ret (posSort (ltB cfg.eps) l l) b!"null") := fun f' hf' => by
        rw [assign_bind]; exact sim_ok st2 hf' _
      unfold sorting
      split
      · rename_i x y l' 
        rcases ask_cases hf with ⟨f', e, hf'⟩ | ⟨k, f', e, hf', hS⟩
        · rw [ok_bind (x := sortAlloc) (a := ()) (s' := s) (m' := m) (f' := f') (by simp only [sortAlloc, e])]
          exact fin f' hf'
        · rw [bind_apply]; unfold M.bind
          simp only [sortAlloc, e]
          exact ⟨hS, hR rfl ⟨x, y, l', rfl⟩⟩
      · exact fin f hf
    · rw [if_neg e2, if_neg e2]; rfl

/-- What a vector may hold after a message to it was interrupted. -/
def VecPart (cfg : Cfg) (et : Str) (l : List Obj) (name : Str) (args : List Str) (A : Allowed (List Obj)) : Prop :=
  A.part l ∧
  (name = b!"popBack" → (∃ o ∈ l, Texty o) → ∀ l' r, Knuckle.vecPopBack cfg l args = .ret l' r → A.part l') ∧
  (name = b!"popFront" → (∃ o ∈ l, Texty o) → ∀ l' r, Knuckle.vecPopFront cfg l args = .ret l' r → A.part l') ∧
  (name = b!"popAtIndex:" → (∃ o ∈ l, Texty o) → ∀ l' r, Knuckle.vecPopAtIndex cfg l args = .ret l' r → A.part l') ∧
  (name = b!"removeAll:" → ∀ a x, args = [a] → getSharedInstance et a = .ok (.string x) → ∀ k l' r, Knuckle.vecRemoveAll cfg et (l.take k) args = .ret l' r → A.part (l' ++ l.drop k)) ∧
  (name = b!"replaceAll:with:" → ∀ k l' r, Knuckle.vecReplaceAll cfg et (l.take k) args = .ret l' r → A.part (l' ++ l.drop k)) ∧
  (name = b!"sort" → args = [] → (∃ x y l', l = .string x :: y :: l') → A.ruin)

theorem vector_sim [PosSort] {C : Prop} (h : State L F m s l) (hf : Fed A.short f) (cfg : Cfg) (et name : Str) (args : List Str)
    (hP : VecPart cfg et l name args A) (hc : Cuts A C cfg.prec) (hC : ∀ x, .float x ∈ l → C) :
    Sim A L F m (dispatch (vectorTable cfg et) name args s m f)
      (Knuckle.dispatch l (@Knuckle.vectorTable Heap.stdSortOf cfg et l) name args) := by
  obtain ⟨hA, p1, p2, p3, p4, p5, p6⟩ := hP
  refine sim_dispatch h hf name args ?_
  unfold vectorTable Knuckle.vectorTable
  refine .cons ⟨rfl, fun _ => vecGet_sim h hf hA cfg hc hC args⟩ <| .cons ⟨rfl, fun _ => vecIsEmpty_sim h hf args⟩ <|
    .cons ⟨rfl, fun _ => vecContains_sim h hf hA ..⟩ <|
    .cons ⟨rfl, fun _ => vecContainsFrom_sim h hf hA ..⟩ <| .cons ⟨rfl, fun _ => vecCount_sim h hf hA ..⟩ <|
    .cons ⟨rfl, fun _ => vecAtIndex_sim h hf hA cfg hc hC args⟩ <|
    .cons ⟨rfl, fun _ => vecFirstIndexOf_sim h hf hA ..⟩ <| .cons ⟨rfl, fun _ => vecFirstIndexOfFrom_sim h hf hA ..⟩ <|
    .cons ⟨rfl, fun _ => vecAllIndexesOf_sim h hf hA ..⟩ <| .cons ⟨rfl, fun _ => listSize_sim h hf args⟩ <|
    .cons ⟨rfl, fun _ => vecFirst_sim h hf hA cfg hc hC args⟩ <|
    .cons ⟨rfl, fun _ => vecLast_sim h hf hA cfg hc hC args⟩ <| .cons ⟨rfl, fun _ => vecSlice_sim h hf hA cfg hc hC args⟩ <|
    .cons ⟨rfl, fun _ => vecSliceTo_sim h hf hA cfg hc hC args⟩ <|
    .cons ⟨rfl, fun _ => vecPushBack_sim h hf hA ..⟩ <| .cons ⟨rfl, fun _ => vecPushFront_sim h hf hA ..⟩ <|
    .cons ⟨rfl, fun e => vecPopBack_sim h hf cfg args (p1 e) hc hC⟩ <|
    .cons ⟨rfl, fun e => vecPopFront_sim h hf cfg args (p2 e) hc hC⟩ <|
    .cons ⟨rfl, fun e => vecPopAtIndex_sim h hf cfg args (p3 e) hc hC⟩ <| .cons ⟨rfl, fun _ => vecInsert_sim h hf hA ..⟩ <|
    .cons ⟨rfl, fun _ => vecErase_sim h hf args⟩ <| .cons ⟨rfl, fun _ => vecEraseTo_sim h hf args⟩ <|
    .cons ⟨rfl, fun _ => vecRemoveFirst_sim h hf hA ..⟩ <|
    .cons ⟨rfl, fun _ => vecRemoveFirstFrom_sim h hf hA ..⟩ <| .cons ⟨rfl, fun e => vecRemoveAll_sim h hf hA cfg et args (p4 e)⟩ <|
    .cons ⟨rfl, fun _ => vecReplaceFirst_sim h hf hA ..⟩ <| .cons ⟨rfl, fun _ => vecReplaceFirstFrom_sim h hf hA ..⟩ <|
    .cons ⟨rfl, fun e => vecReplaceAll_sim h hf hA cfg et args (p5 e)⟩ <|
    .cons ⟨rfl, fun e => vecSort_sim h hf cfg args (p6 e)⟩ <| .cons ⟨rfl, fun _ => vecReverse_sim h hf args⟩ <|
    .cons ⟨rfl, fun _ => listClear_sim h hf args⟩ .nil

end

end Knuckle.Scarce

import Verif.Model.Heap
import Mathlib.Data.List.Perm.Basic
import Mathlib.Data.List.Nodup

namespace Knuckle.Heap

/-! ### Counting pointers -/

/-- The number of pointers to an address. -/
def refs (m : Mem) (a : Addr) : Nat := match m.cells a with
  | some (_, n) => n
  | none => 0

/-- The instance at an address. -/
def inst (m : Mem) (a : Addr) : Option Cell := (m.cells a).map (·.1)

/-- The counts are right for the pointers `P`. -/
structure Good (m : Mem) (P : List Addr) : Prop where
  count : ∀ a, refs m a = P.count a
  pos : ∀ a c n, m.cells a = some (c, n) → 0 < n
  fresh : ∀ a, m.next ≤ a → m.cells a = none

/-- The same instances at these addresses. -/
def Same (m m' : Mem) (P : List Addr) : Prop := ∀ a ∈ P, inst m' a = inst m a

theorem obj_inst (m : Mem) (p : Addr) : m.obj p = match inst m p with
    | some (.obj o) => some o
    | _ => none := by
  unfold Mem.obj inst
  rcases m.cells p with _ | ⟨_ | _ | _ | _, n⟩ <;> rfl

theorem obj_congr {m m' : Mem} {p : Addr} (h : inst m' p = inst m p) : m'.obj p = m.obj p := by
  rw [obj_inst, obj_inst, h]

theorem same_refl (m : Mem) (P : List Addr) : Same m m P := fun _ _ => rfl

theorem Same.trans {m m' m'' : Mem} {P : List Addr} (h : Same m m' P) (h' : Same m' m'' P) : Same m m'' P :=
  fun a ha => (h' a ha).trans (h a ha)

theorem Same.mono {m m' : Mem} {P Q : List Addr} (h : Same m m' P) (hs : ∀ a ∈ Q, a ∈ P) : Same m m' Q :=
  fun a ha => h a (hs a ha)

theorem good_congr {m : Mem} {P Q : List Addr} (h : Good m P) (e : ∀ a, P.count a = Q.count a) : Good m Q :=
  ⟨fun a => (h.count a).trans (e a), h.pos, h.fresh⟩

theorem good_empty : Good .empty [] := ⟨fun _ => rfl, fun _ _ _ h => by simp [Mem.empty] at h, fun _ _ => rfl⟩

theorem good_live {m : Mem} {P : List Addr} (h : Good m P) {p : Addr} (hp : p ∈ P) : ∃ c n, m.cells p = some (c, n) := by
  have hc := h.count p
  have h1 := List.count_pos_iff.2 hp
  unfold refs at hc
  rcases e : m.cells p with _ | ⟨c, n⟩
  · rw [e] at hc; simp only at hc; omega
  · exact ⟨c, n, rfl⟩

theorem refs_put (m : Mem) (p : Addr) (c : Option (Cell × Nat)) (a : Addr) :
    refs (m.put p c) a = if a = p then (match c with | some (_, n) => n | none => 0) else refs m a := by
  unfold refs Mem.put
  by_cases h : a = p
  · simp [h]
  · simp [h]

theorem inst_put (m : Mem) (p : Addr) (c : Option (Cell × Nat)) (a : Addr) :
    inst (m.put p c) a = if a = p then c.map (·.1) else inst m a := by
  unfold inst Mem.put
  by_cases h : a = p
  · simp [h]
  · simp [h]

theorem good_new {m : Mem} {P : List Addr} (h : Good m P) (c : Cell) :
    Good (m.new c).2 ((m.new c).1 :: P) ∧ (m.new c).1 ∉ P ∧ inst (m.new c).2 (m.new c).1 = some c ∧
      Same m (m.new c).2 P := by
  have hf := h.fresh m.next (Nat.le_refl _)
  have hn : m.next ∉ P := by
    intro hp
    obtain ⟨c, n, e⟩ := good_live h hp
    rw [hf] at e; cases e
  have h0 : P.count m.next = 0 := List.count_eq_zero.2 hn
  refine ⟨⟨?_, ?_, ?_⟩, hn, ?_, ?_⟩
  · intro a
    have := h.count a
    unfold refs at this
    simp only [refs, Mem.new, List.count_cons]
    by_cases e : a = m.next
    · subst e; simp [h0]
    · have e' : ¬ m.next = a := fun x => e x.symm
      simp [e, e', this]
  · intro a c' n e
    simp only [Mem.new] at e
    by_cases ea : a = m.next
    · simp [ea] at e; omega
    · simp [ea] at e; exact h.pos a c' n e
  · intro a ha
    simp only [Mem.new] at ha ⊢
    rw [if_neg (Nat.ne_of_gt ha)]
    exact h.fresh a (Nat.le_of_succ_le ha)
  · simp [inst, Mem.new]
  · intro a ha
    have : a ≠ m.next := fun e => hn (e ▸ ha)
    simp [inst, Mem.new, this]

theorem good_copy {m : Mem} {P : List Addr} (h : Good m P) {p : Addr} (hp : p ∈ P) :
    ∃ m', m.copy p = some m' ∧ Good m' (p :: P) ∧ ∀ a, inst m' a = inst m a := by
  obtain ⟨c, n, e⟩ := good_live h hp
  refine ⟨m.put p (some (c, n + 1)), by simp [Mem.copy, e], ⟨?_, ?_, ?_⟩, ?_⟩
  · intro a
    have := h.count a
    rw [refs_put, List.count_cons]
    by_cases ea : a = p
    · subst ea
      unfold refs at this
      rw [e] at this
      simp only at this
      simp [this]
    · have ea' : ¬ p = a := fun x => ea x.symm
      simp [ea, ea', this]
  · intro a c' k ek
    simp only [Mem.put] at ek
    by_cases ea : a = p
    · simp [ea] at ek; omega
    · simp [ea] at ek; exact h.pos a c' k ek
  · intro a ha
    have : a ≠ p := fun ea => by have := h.fresh a ha; rw [ea, e] at this; cases this
    simp only [Mem.put, this, if_false]
    exact h.fresh a ha
  · intro a
    rw [inst_put]
    by_cases ea : a = p
    · subst ea; simp [inst, e]
    · simp [ea]

/-- Taking one pointer away from the count. -/
theorem good_less {m : Mem} {P : List Addr} {p : Addr} (h : Good m (p :: P)) {c : Cell} {n : Nat}
    (e : m.cells p = some (c, n + 1)) :
    Good (m.put p (if n = 0 then none else some (c, n))) P ∧
      Same m (m.put p (if n = 0 then none else some (c, n))) P := by
  have hp := h.count p
  unfold refs at hp
  rw [e] at hp
  simp only [List.count_cons_self] at hp
  refine ⟨⟨?_, ?_, ?_⟩, ?_⟩
  · intro a
    have := h.count a
    rw [refs_put]
    by_cases ea : a = p
    · subst ea
      by_cases e0 : n = 0
      · simp [e0]; omega
      · simp [e0]; omega
    · have ea' : ¬ p = a := fun x => ea x.symm
      rw [List.count_cons] at this
      simp [ea, ea'] at this ⊢
      exact this
  · intro a c' k ek
    simp only [Mem.put] at ek
    by_cases ea : a = p
    · rw [if_pos ea] at ek
      by_cases e0 : n = 0
      · rw [if_pos e0] at ek; cases ek
      · rw [if_neg e0] at ek; cases ek; omega
    · rw [if_neg ea] at ek; exact h.pos a c' k ek
  · intro a ha
    have : a ≠ p := fun ea => by have := h.fresh a ha; rw [ea, e] at this; cases this
    simp only [Mem.put, this, if_false]
    exact h.fresh a ha
  · intro a ha
    rw [inst_put]
    by_cases ea : a = p
    · subst ea
      have : 0 < P.count a := List.count_pos_iff.2 ha
      have e0 : n ≠ 0 := by omega
      simp [e0, inst, e]
    · simp [ea]

theorem good_drop {m : Mem} {P : List Addr} {p : Addr} (h : Good m (p :: P)) (ho : (m.obj p).isSome) :
    ∃ m', m.drop p = some m' ∧ Good m' P ∧ Same m m' P := by
  unfold Mem.obj at ho
  rcases e : m.cells p with _ | ⟨o | _ | _ | _, n⟩
  · rw [e] at ho; cases ho
  · have hn := h.pos p _ _ e
    obtain ⟨n, rfl⟩ : ∃ k, n = k + 1 := ⟨n - 1, by omega⟩
    have := good_less h e
    refine ⟨_, ?_, this⟩
    unfold Mem.drop
    rw [e]
    rcases n with _ | n <;> rfl
  all_goals rw [e] at ho; cases ho

theorem good_dropAll {P : List Addr} : ∀ {ps : List Addr} {m : Mem}, Good m (ps ++ P) → (∀ p ∈ ps, (m.obj p).isSome) →
    ∃ m', m.dropAll ps = some m' ∧ Good m' P ∧ Same m m' P
  | [], m, h, _ => ⟨m, rfl, h, same_refl _ _⟩
  | p :: ps, m, h, ho => by
    obtain ⟨m1, e1, g1, s1⟩ := good_drop (P := ps ++ P) h (ho p (by simp))
    obtain ⟨m2, e2, g2, s2⟩ := good_dropAll g1 fun q hq => by
      rw [obj_congr (s1 q (by simp [hq]))]
      exact ho q (by simp [hq])
    refine ⟨m2, ?_, g2, (s1.mono (by intro a ha; simp [ha])).trans s2⟩
    simp only [Mem.dropAll, e1, e2]

/-! ### Entries of containers -/

/-- What containers hold: pointers (vectors, sets) or pairs of pointers (dictionaries). -/
class Entry (ε : Type) (τ : outParam Type) where
  ptr : ε → List Addr
  see : Mem → ε → Option τ
  congr : ∀ m m' e, (∀ p ∈ ptr e, inst m' p = inst m p) → see m' e = see m e
  objs : ∀ m e, (see m e).isSome → ∀ p ∈ ptr e, (m.obj p).isSome

instance : Entry Addr Obj where
  ptr p := [p]
  see m p := m.obj p
  congr m m' p h := obj_congr (h p (by simp))
  objs m p h q hq := by
    have : q = p := by simpa using hq
    rw [this]; exact h

/-- Both objects of an entry of a dictionary. -/
def seePair (m : Mem) (e : Addr × Addr) : Option (Obj × Obj) := match m.obj e.1, m.obj e.2 with
  | some a, some b => some (a, b)
  | _, _ => none

instance : Entry (Addr × Addr) (Obj × Obj) where
  ptr e := [e.1, e.2]
  see := seePair
  congr m m' e h := by
    unfold seePair
    rw [obj_congr (h e.1 (by simp)), obj_congr (h e.2 (by simp))]
  objs m e h p hp := by
    unfold seePair at h
    rcases h1 : m.obj e.1 with _ | a
    · rw [h1] at h; cases h
    · rcases h2 : m.obj e.2 with _ | b
      · rw [h1, h2] at h; cases h
      · rcases List.mem_pair.1 hp with rfl | rfl
        · rw [h1]; rfl
        · rw [h2]; rfl

section
variable {ε τ : Type} [Entry ε τ]

/-- The pointers in the entries. -/
def held (s : List ε) : List Addr := s.flatMap Entry.ptr

/-- The entries `s` lead to the values `l`. -/
def Reads (m : Mem) (s : List ε) (l : List τ) : Prop := s.map (Entry.see m) = l.map some

@[simp] theorem held_nil : held ([] : List ε) = [] := rfl
@[simp] theorem held_cons (e : ε) (s : List ε) : held (e :: s) = Entry.ptr e ++ held s := rfl
@[simp] theorem held_append (s t : List ε) : held (s ++ t) = held s ++ held t := by simp [held]

theorem reads_congr {m m' : Mem} {s : List ε} {l : List τ} (h : Reads m s l) (hs : Same m m' (held s)) : Reads m' s l := by
  unfold Reads at *
  rw [← h]
  apply List.map_congr_left
  intro e he
  exact Entry.congr m m' e fun p hp => hs p (List.mem_flatMap.2 ⟨e, he, hp⟩)

theorem reads_objs {m : Mem} {s : List ε} {l : List τ} (h : Reads m s l) : ∀ p ∈ held s, (m.obj p).isSome := by
  intro p hp
  obtain ⟨e, he, hpe⟩ := List.mem_flatMap.1 hp
  apply Entry.objs m e _ p hpe
  have : Entry.see m e ∈ s.map (Entry.see m) := List.mem_map_of_mem he
  rw [h] at this
  obtain ⟨t, _, ht⟩ := List.mem_map.1 this
  rw [← ht]; rfl

theorem reads_length {m : Mem} {s : List ε} {l : List τ} (h : Reads m s l) : s.length = l.length := by
  have := congrArg List.length h
  simpa using this

theorem reads_nil {m : Mem} : Reads m ([] : List ε) [] := rfl

theorem reads_cons {m : Mem} {e : ε} {t : τ} {s : List ε} {l : List τ} (he : Entry.see m e = some t) (h : Reads m s l) :
    Reads m (e :: s) (t :: l) := by
  unfold Reads at *
  simp [he, h]

theorem reads_cons_inv {m : Mem} {e : ε} {s : List ε} {l : List τ} (h : Reads m (e :: s) l) :
    ∃ t l', l = t :: l' ∧ Entry.see m e = some t ∧ Reads m s l' := by
  unfold Reads at h
  cases l with
  | nil => simp at h
  | cons t l => simp only [List.map_cons, List.cons.injEq] at h; exact ⟨t, l, rfl, h.1, h.2⟩

theorem reads_append {m : Mem} {s s' : List ε} {l l' : List τ} (h : Reads m s l) (h' : Reads m s' l') :
    Reads m (s ++ s') (l ++ l') := by
  unfold Reads at *
  simp [h, h']

theorem reads_take {m : Mem} {s : List ε} {l : List τ} (h : Reads m s l) (n : Nat) : Reads m (s.take n) (l.take n) := by
  unfold Reads at *
  rw [List.map_take, List.map_take, h]

theorem reads_drop {m : Mem} {s : List ε} {l : List τ} (h : Reads m s l) (n : Nat) : Reads m (s.drop n) (l.drop n) := by
  unfold Reads at *
  rw [List.map_drop, List.map_drop, h]

theorem reads_reverse {m : Mem} {s : List ε} {l : List τ} (h : Reads m s l) : Reads m s.reverse l.reverse := by
  unfold Reads at *
  rw [List.map_reverse, List.map_reverse, h]

theorem reads_get {m : Mem} {s : List ε} {l : List τ} (h : Reads m s l) (n : Nat) : (s[n]?).map (Entry.see m) = (l[n]?).map some := by
  have := congrArg (·[n]?) h
  simpa using this

/-! ### The state of an operator -/

/-- Between the steps of an operator: the entries `s` have the values `l`, there are local pointers `L` and pointers `F`
elsewhere, and these are all there are. -/
structure State (L F : List Addr) (m : Mem) (s : List ε) (l : List τ) : Prop where
  good : Good m (held s ++ (L ++ F))
  nodup : (held s ++ F).Nodup
  reads : Reads m s l

/-- An end of a heap operator matches an end of the operator on values. -/
def Sim (L F : List Addr) (m0 : Mem) (out : Out (List ε) Str) (r : Run (List τ)) : Prop :=
  match out, r with
  | .ok a s m, .ret l b => a = b ∧ State L F m s l ∧ Same m0 m (L ++ F)
  | .err e s m, .thr l e' => e = e' ∧ State L F m s l ∧ Same m0 m (L ++ F)
  | .ub, .ub => True
  | _, _ => False

/-- Go on with a result, or end with the state unchanged. -/
def thenRun {σ α : Type} (l : σ) (x : Res α) (k : α → Run σ) : Run σ := match x with
  | .ok a => k a
  | .err e => .thr l e
  | .ub => .ub

omit [Entry ε τ] in
theorem run_bind {σ α : Type} (l : σ) (x : Res α) (f : α → Res (σ × Str)) :
    Res.run l (x >>= f) = thenRun l x fun a => Res.run l (f a) := by cases x <;> rfl

theorem sim_same {L F : List Addr} {m m1 : Mem} {out : Out (List ε) Str} {r : Run (List τ)} (h : Sim L F m1 out r)
    (hs : Same m m1 (L ++ F)) : Sim L F m out r := by
  unfold Sim at *
  split at h
  · exact ⟨h.1, h.2.1, hs.trans h.2.2⟩
  · exact ⟨h.1, h.2.1, hs.trans h.2.2⟩
  · trivial
  · exact h

theorem settle {L F Q D : List Addr} {m : Mem} {s : List ε} {l : List τ} (hg : Good m Q)
    (hc : ∀ a, Q.count a = (D ++ (held s ++ (L ++ F))).count a) (hd : ∀ p ∈ D, (m.obj p).isSome)
    (hn : (held s ++ F).Nodup) (hr : Reads m s l) :
    ∃ m', m.dropAll D = some m' ∧ State L F m' s l ∧ Same m m' (held s ++ (L ++ F)) := by
  obtain ⟨m', e, g, hs⟩ := good_dropAll (good_congr hg hc) hd
  exact ⟨m', e, ⟨g, hn, reads_congr hr (hs.mono (by intro a ha; simp [ha]))⟩, hs⟩

theorem sim_ok {L F : List Addr} {m : Mem} {s : List ε} {l : List τ} (h : State L F m s l) (a : Str) :
    Sim L F m (.ok a s m) (.ret l a) := ⟨rfl, h, same_refl _ _⟩

theorem sim_err {L F : List Addr} {m : Mem} {s : List ε} {l : List τ} (h : State L F m s l) (e : Exc) :
    Sim L F m (.err e s m) (.thr l e) := ⟨rfl, h, same_refl _ _⟩

/-- Leaving a scope with one local pointer. -/
theorem sim_scope {L F : List Addr} {p : Addr} {m : Mem} {body : M (List ε) Str} {s : List ε} {r : Run (List τ)}
    (ho : (m.obj p).isSome) (h : Sim (p :: L) F m (body s m) r) : Sim L F m (scope [p] body s m) r := by
  have key : ∀ {s' : List ε} {m' : Mem} {l : List τ}, State (p :: L) F m' s' l → Same m m' (p :: L ++ F) →
      ∃ m'', m'.dropAll [p] = some m'' ∧ State L F m'' s' l ∧ Same m m'' (L ++ F) := by
    intro s' m' l hst hsa
    obtain ⟨m'', e, st, sa⟩ := settle (L := L) (D := [p]) hst.good
      (by intro a; simp only [List.count_append, List.count_cons, List.count_nil]; omega)
      (by intro q hq
          have : q = p := by simpa using hq
          rw [this, obj_congr (hsa p (by simp))]; exact ho)
      hst.nodup hst.reads
    exact ⟨m'', e, st, (hsa.mono (by intro a ha; simp at ha ⊢; tauto)).trans (sa.mono (by intro a ha; simp at ha ⊢; tauto))⟩
  unfold scope
  unfold Sim at h
  split at h
  · rename_i e1
    obtain ⟨m'', e, st, sa⟩ := key h.2.1 h.2.2
    simp only [e1, e]
    exact ⟨h.1, st, sa⟩
  · rename_i e1
    obtain ⟨m'', e, st, sa⟩ := key h.2.1 h.2.2
    simp only [e1, e]
    exact ⟨h.1, st, sa⟩
  · rename_i e1
    simp only [e1]
    trivial
  · exact h.elim

theorem newShared_ok {σ : Type} {et a : Str} {o : Obj} (h : getSharedInstance et a = .ok o) (s : σ) (m : Mem) :
    newShared et a s m = .ok (m.new (.obj o)).1 s (m.new (.obj o)).2 := by
  change M.bind _ _ s m = _
  simp only [M.bind, lift, h]

theorem newShared_err {σ : Type} {et a : Str} {e : Exc} (h : getSharedInstance et a = .err e) (s : σ) (m : Mem) :
    newShared et a s m = .err e s m := by
  change M.bind _ _ s m = _
  simp only [M.bind, lift, h]

theorem newShared_ub {σ : Type} {et a : Str} (h : getSharedInstance et a = .ub) (s : σ) (m : Mem) :
    newShared et a s m = .ub := by
  change M.bind _ _ s m = _
  simp only [M.bind, lift, h]

theorem sim_shared {L F : List Addr} {m : Mem} {s : List ε} {l : List τ} (h : State L F m s l) {et a : Str}
    {body : Addr → M (List ε) Str} {k : Obj → Run (List τ)}
    (hb : ∀ o p m1, getSharedInstance et a = .ok o → State (p :: L) F m1 s l → p ∉ held s ++ (L ++ F) → m1.obj p = some o →
      Same m m1 (held s ++ (L ++ F)) → Sim (p :: L) F m1 (body p s m1) (k o)) :
    Sim L F m (shared et a body s m) (thenRun l (getSharedInstance et a) k) := by
  change Sim L F m (M.bind _ _ s m) _
  unfold M.bind thenRun
  rcases e : getSharedInstance et a with o | x | _
  · rw [newShared_ok e]
    simp only
    obtain ⟨g, hn, hi, hs⟩ := good_new h.good (.obj o)
    have ho : (m.new (.obj o)).2.obj (m.new (.obj o)).1 = some o := by rw [obj_inst, hi]
    refine sim_same (sim_scope (by rw [ho]; rfl) (hb o _ _ e ⟨good_congr g ?_, h.nodup, ?_⟩ hn ho hs)) ?_
    · intro a; simp only [List.count_append, List.count_cons]; omega
    · exact reads_congr h.reads (hs.mono (by intro a ha; simp [ha]))
    · exact hs.mono (by intro a ha; simp at ha ⊢; tauto)
  · rw [newShared_err e]
    exact sim_err h x
  · rw [newShared_ub e]
    trivial

theorem sim_lift {α : Type} {L F : List Addr} {m : Mem} {s : List ε} {l : List τ} (h : State L F m s l) {x : Res α}
    {f : α → M (List ε) Str} {k : α → Run (List τ)} (hb : ∀ a, x = .ok a → Sim L F m (f a s m) (k a)) :
    Sim L F m ((lift x >>= f) s m) (thenRun l x k) := by
  change Sim L F m (M.bind _ _ s m) _
  unfold M.bind lift thenRun
  rcases x with a | e | _
  · exact hb a rfl
  · exact sim_err h e
  · trivial

end

section
variable {σ α β : Type}

@[simp] theorem pure_apply (a : α) (s : σ) (m : Mem) : (pure a : M σ α) s m = .ok a s m := rfl
theorem bind_apply (x : M σ α) (f : α → M σ β) (s : σ) (m : Mem) : (x >>= f) s m = M.bind x f s m := rfl
@[simp] theorem value_bind (f : σ → M σ α) (s : σ) (m : Mem) : (value >>= f) s m = f s s m := rfl
@[simp] theorem assign_bind (s' : σ) (f : Unit → M σ α) (s : σ) (m : Mem) : (assign s' >>= f) s m = f () s' m := rfl
@[simp] theorem pure_bind' (a : α) (f : α → M σ β) (s : σ) (m : Mem) : ((pure a : M σ α) >>= f) s m = f a s m := rfl

theorem ok_bind {x : M σ α} {a : α} {s s' : σ} {m m' : Mem} (h : x s m = .ok a s' m') (f : α → M σ β) :
    (x >>= f) s m = f a s' m' := by
  rw [bind_apply]; unfold M.bind; rw [h]

theorem copy_ok {p : Addr} {m m' : Mem} (h : m.copy p = some m') (s : σ) : (copy p : M σ Unit) s m = .ok () s m' := by
  simp only [copy, act, h]

theorem dropAll_ok {ps : List Addr} {m m' : Mem} (h : m.dropAll ps = some m') (s : σ) :
    (dropAll ps : M σ Unit) s m = .ok () s m' := by
  simp only [dropAll, act, h]

theorem deref_ok {p : Addr} {m : Mem} {o : Obj} (h : m.obj p = some o) (s : σ) : (deref p : M σ Obj) s m = .ok o s m := by
  unfold deref; rw [h]

theorem derefAll_ok {m : Mem} : ∀ {ps : List Addr} {l : List Obj}, Reads m ps l → ∀ s : σ,
    (derefAll ps : M σ (List Obj)) s m = .ok l s m
  | [], l, h, s => by
    have : l = [] := by
      have := reads_length h
      exact List.eq_nil_of_length_eq_zero this.symm
    subst this; rfl
  | p :: ps, l, h, s => by
    obtain ⟨o, l', rfl, ho, hr⟩ := reads_cons_inv h
    unfold derefAll
    rw [ok_bind (deref_ok ho s), ok_bind (derefAll_ok hr s)]
    rfl

theorem equal_eq {m : Mem} {p q : Addr} {a b : Obj} (hp : m.obj p = some a) (hq : m.obj q = some b) (eps : Fl) (s : σ) :
    (equal eps p q : M σ Bool) s m = lift (equalTo eps a b) s m := by
  unfold equal
  rw [ok_bind (deref_ok hp s), ok_bind (deref_ok hq s)]

theorem lift_bind (x : Res α) (f : α → M σ β) (s : σ) (m : Mem) : (lift x >>= f) s m = match x with
    | .ok a => f a s m
    | .err e => .err e s m
    | .ub => .ub := by
  rw [bind_apply]; unfold M.bind lift; cases x <;> rfl

theorem search_eq {m : Mem} {eps : Fl} {p : Addr} {o : Obj} (hp : m.obj p = some o) (s : σ) :
    ∀ {ps : List Addr} {l : List Obj} (i : Nat), Reads m ps l → (search eps p ps i : M σ _) s m = lift (findFrom eps o l i) s m
  | [], l, i, h => by
    have : l = [] := List.eq_nil_of_length_eq_zero (reads_length h).symm
    subst this; rfl
  | x :: ps, l, i, h => by
    obtain ⟨a, l', rfl, ha, hr⟩ := reads_cons_inv h
    unfold search findFrom
    have e := equal_eq (σ := σ) ha hp eps s
    rw [bind_apply]; unfold M.bind; rw [e]
    rcases equalTo eps a o with (_ | _) | _ | _
    · exact search_eq hp s (i + 1) hr
    · rfl
    · rfl
    · rfl

theorem tally_eq {m : Mem} {eps : Fl} {p : Addr} {o : Obj} (hp : m.obj p = some o) (s : σ) :
    ∀ {ps : List Addr} {l : List Obj} (i : Nat), Reads m ps l → (tally eps p ps i : M σ _) s m = lift (countLoop eps o l i) s m
  | [], l, i, h => by
    have : l = [] := List.eq_nil_of_length_eq_zero (reads_length h).symm
    subst this; rfl
  | x :: ps, l, i, h => by
    obtain ⟨a, l', rfl, ha, hr⟩ := reads_cons_inv h
    unfold tally countLoop
    have e := equal_eq (σ := σ) ha hp eps s
    rw [bind_apply]; unfold M.bind; rw [e]
    rcases equalTo eps a o with (_ | _) | _ | _
    · exact tally_eq hp s i hr
    · exact tally_eq hp s (i + 1) hr
    · rfl
    · rfl

theorem indexes_eq {m : Mem} {eps : Fl} {p : Addr} {o : Obj} (hp : m.obj p = some o) (s : σ) :
    ∀ {ps : List Addr} {l : List Obj} (i : Nat) (acc : Str), Reads m ps l →
      (indexes eps p ps i acc : M σ _) s m = lift (indexesLoop eps o l i acc) s m
  | [], l, i, acc, h => by
    have : l = [] := List.eq_nil_of_length_eq_zero (reads_length h).symm
    subst this; rfl
  | x :: ps, l, i, acc, h => by
    obtain ⟨a, l', rfl, ha, hr⟩ := reads_cons_inv h
    unfold indexes indexesLoop
    have e := equal_eq (σ := σ) ha hp eps s
    rw [bind_apply]; unfold M.bind; rw [e]
    rcases equalTo eps a o with (_ | _) | _ | _
    · exact indexes_eq hp s (i + 1) acc hr
    · exact indexes_eq hp s (i + 1) _ hr
    · rfl
    · rfl

end

end Knuckle.Heap

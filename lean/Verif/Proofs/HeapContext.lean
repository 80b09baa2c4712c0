import Verif.Proofs.HeapOrdered
import Verif.Proofs.HeapLoops
import Verif.Proofs.Order

namespace Knuckle.Heap

/-- An object as an instance. -/
def instOf : Obj → Inst
  | .boolean v => .boolean v
  | .character v => .character v
  | .integer v => .integer v
  | .float v => .float v
  | .string v => .string v

/-- The instance in a cell has the value `i`. -/
def Shows (m : Mem) : Cell → Inst → Prop
  | .obj o, i => i = instOf o
  | .vector et s, .vector et' l => et = et' ∧ Reads m s l
  | .set et s, .set et' l => et = et' ∧ Reads m s l
  | .dictionary kt vt s, .dictionary kt' vt' l => kt = kt' ∧ vt = vt' ∧ Reads m s l
  | _, _ => False

theorem shows_congr {m m' : Mem} {c : Cell} {i : Inst} (h : Shows m c i) (hs : Same m m' c.children) : Shows m' c i := by
  unfold Shows at *
  split at h
  · exact h
  · exact ⟨h.1, reads_congr h.2 (by rw [held_addr]; exact hs)⟩
  · exact ⟨h.1, reads_congr h.2 (by rw [held_addr]; exact hs)⟩
  · exact ⟨h.1, h.2.1, reads_congr h.2.2 hs⟩
  · exact h.elim

theorem shows_objs {m : Mem} {c : Cell} {i : Inst} (h : Shows m c i) : ∀ p ∈ c.children, (m.obj p).isSome := by
  unfold Shows at *
  split at h
  · intro p hp; cases hp
  · have := reads_objs h.2; rw [held_addr] at this; exact this
  · have := reads_objs h.2; rw [held_addr] at this; exact this
  · exact reads_objs h.2.2
  · exact h.elim

/-- A variable: its name, its pointer, the instance there and its value. -/
structure Row where
  name : Str
  ptr : Addr
  cell : Cell
  val : Inst

/-- The pointers of a variable: the one in the context and those in its instance. -/
def Row.ptrs (r : Row) : List Addr := r.ptr :: r.cell.children

/-- The pointers of all variables. -/
def ptrs (rs : List Row) : List Addr := rs.flatMap Row.ptrs

@[simp] theorem ptrs_nil : ptrs [] = [] := rfl
@[simp] theorem ptrs_cons (r : Row) (rs : List Row) : ptrs (r :: rs) = r.ptr :: (r.cell.children ++ ptrs rs) := rfl
@[simp] theorem ptrs_append (s t : List Row) : ptrs (s ++ t) = ptrs s ++ ptrs t := by simp [ptrs]

/-- The variables are in memory as described. -/
def Placed (m : Mem) (rs : List Row) : Prop := ∀ r ∈ rs, inst m r.ptr = some r.cell ∧ Shows m r.cell r.val

theorem placed_congr {m m' : Mem} {rs : List Row} (h : Placed m rs) (hs : Same m m' (ptrs rs)) : Placed m' rs := by
  intro r hr
  have hm : ∀ a ∈ r.ptrs, a ∈ ptrs rs := fun a ha => List.mem_flatMap.2 ⟨r, hr, ha⟩
  refine ⟨(hs _ (hm _ (by simp [Row.ptrs]))).trans (h r hr).1, shows_congr (h r hr).2 ?_⟩
  exact fun a ha => hs a (hm a (by simp [Row.ptrs, ha]))

/-- All that is in memory are the variables. -/
structure Rows (m : Mem) (rs : List Row) : Prop where
  good : Good m (ptrs rs)
  nodup : (ptrs rs).Nodup
  placed : Placed m rs

/-- The context with pointers stands for the context with values. -/
structure Rep (h : HCtx) (c : Ctx) (rs : List Row) : Prop where
  rows : Rows h.mem rs
  vars : h.vars = rs.map fun r => (r.name, r.ptr)
  vals : c.vars = rs.map fun r => (r.name, r.val)
  cfg : h.cfg = c.cfg
  fileOpen : h.fileOpen = c.fileOpen
  quiet : h.quiet = c.quiet
  fileLog : h.fileLog = c.fileLog
  stdoutLog : h.stdoutLog = c.stdoutLog

theorem rep_init (prec : Int) (eps : Fl) (f q : Bool) : Rep (HCtx.init prec eps f q) (Ctx.init prec eps f q) [] :=
  ⟨⟨good_empty, by simp, by intro r hr; cases hr⟩, rfl, rfl, rfl, rfl, rfl, rfl, rfl⟩

/-! ### Finding variables -/

theorem find_rows (n : Str) : ∀ rs : List Row,
    (∀ {α : Type} (g : Row → α), mapFind strLt n (rs.map fun r => (r.name, g r)) = none) ∨
    ∃ A r B, rs = A ++ r :: B ∧ r.name = n ∧ (∀ a ∈ A, a.name ≠ n) ∧
      ∀ {α : Type} (g : Row → α), mapFind strLt n (rs.map fun r => (r.name, g r)) = some (g r)
  | [] => .inl fun _ => rfl
  | r :: rs => by
    by_cases h1 : strLt r.name n = true
    · rcases find_rows n rs with h | ⟨A, r', B, rfl, hn, hA, h⟩
      · left
        intro α g
        simp only [List.map_cons, mapFind, h1, if_true]
        exact h g
      · right
        refine ⟨r :: A, r', B, rfl, hn, ?_, ?_⟩
        · intro a ha
          rcases List.mem_cons.1 ha with rfl | ha
          · intro e; rw [e, strLt_irrefl] at h1; cases h1
          · exact hA a ha
        · intro α g
          simp only [List.cons_append, List.map_cons, mapFind, h1, if_true]
          exact h g
    · by_cases h2 : strLt n r.name = true
      · left
        intro α g
        simp only [List.map_cons, mapFind, h1, h2, if_true]
        rfl
      · right
        refine ⟨[], r, rs, rfl, strLt_total _ _ (by simpa using h1) (by simpa using h2), by simp, ?_⟩
        intro α g
        simp only [List.map_cons, mapFind, h1, h2]
        rfl

theorem insert_rows (n : Str) : ∀ rs : List Row, mapFind strLt n (rs.map fun r => (r.name, ())) = none →
    ∃ A B, rs = A ++ B ∧ ∀ {α : Type} (g : Row → α) (v : α), mapInsert strLt n v (rs.map fun r => (r.name, g r)) =
      (A.map fun r => (r.name, g r)) ++ (n, v) :: B.map fun r => (r.name, g r)
  | [], _ => ⟨[], [], rfl, fun _ _ => rfl⟩
  | r :: rs, h => by
    simp only [List.map_cons, mapFind] at h
    by_cases h1 : strLt r.name n = true
    · simp only [h1, if_true] at h
      obtain ⟨A, B, rfl, hi⟩ := insert_rows n rs h
      refine ⟨r :: A, B, rfl, fun g v => ?_⟩
      simp only [List.cons_append, List.map_cons, mapInsert, h1, if_true]
      rw [hi]
    · by_cases h2 : strLt n r.name = true
      · refine ⟨[], r :: rs, rfl, fun g v => ?_⟩
        simp only [List.map_cons, mapInsert, h1, h2, if_true]
        rfl
      · simp [h1, h2] at h

theorem update_rows {n : Str} {α : Type} (g : Row → α) (v : α) {r : Row} {B : List Row} (hr : r.name = n) :
    ∀ {A : List Row}, (∀ a ∈ A, a.name ≠ n) → updateVar n v ((A ++ r :: B).map fun r => (r.name, g r)) =
      (A.map fun r => (r.name, g r)) ++ (n, v) :: B.map fun r => (r.name, g r)
  | [], _ => by simp [updateVar, hr]
  | a :: A, h => by
    have h1 : (a.name == n) = false := by simpa using h a (by simp)
    have := update_rows g v (B := B) hr (A := A) fun x hx => h x (by simp [hx])
    rw [List.cons_append, List.map_cons, List.map_cons, updateVar, if_neg (by simp [h1]), this]
    rfl

theorem erase_rows (n : Str) : ∀ rs : List Row,
    (∀ {α : Type} (g : Row → α), eraseName n (rs.map fun r => (r.name, g r)) = none) ∨
    ∃ A r B, rs = A ++ r :: B ∧ (∀ {α : Type} (g : Row → α), eraseName n (rs.map fun r => (r.name, g r)) =
        some ((A ++ B).map fun r => (r.name, g r))) ∧
      ∀ {α : Type} (g : Row → α), (rs.map fun r => (r.name, g r)).find? (fun v => v.1 == n) = some (r.name, g r)
  | [] => .inl fun _ => rfl
  | r :: rs => by
    by_cases h1 : r.name = n
    · right
      exact ⟨[], r, rs, rfl, by intro α g; simp [eraseName, h1], by intro α g; simp [h1]⟩
    · rcases erase_rows n rs with h | ⟨A, r', B, rfl, he, hf⟩
      · left
        intro α g
        simp [eraseName, h1, h g]
      · right
        refine ⟨r :: A, r', B, rfl, ?_, ?_⟩
        · intro α g
          have := he g
          rw [List.cons_append, List.map_cons, eraseName, if_neg (by simp [h1]), this]
          rfl
        · intro α g
          have := hf g
          simp only [List.cons_append, List.map_cons]
          rw [List.find?_cons_of_neg (by simp [h1])]
          exact this

/-! ### Storing and releasing -/

theorem good_store {m : Mem} {P : List Addr} (h : Good m P) {p : Addr} (hp : p ∈ P) (c : Cell) :
    ∃ m', store p c m = some m' ∧ Good m' P ∧ inst m' p = some c ∧ ∀ a, a ≠ p → inst m' a = inst m a := by
  obtain ⟨c0, n, e⟩ := good_live h hp
  refine ⟨m.put p (some (c, n)), by simp [store, e], ⟨?_, ?_, ?_⟩, ?_, ?_⟩
  · intro a
    have := h.count a
    rw [refs_put]
    by_cases ea : a = p
    · subst ea
      unfold refs at this
      rw [e] at this
      simpa using this
    · simp [ea, this]
  · intro a c' k ek
    simp only [Mem.put] at ek
    by_cases ea : a = p
    · simp [ea] at ek
      rw [← ek.2]
      exact h.pos p c0 n e
    · simp [ea] at ek; exact h.pos a c' k ek
  · intro a ha
    have : a ≠ p := fun ea => by have := h.fresh a ha; rw [ea, e] at this; cases this
    simp only [Mem.put, this, if_false]
    exact h.fresh a ha
  · simp [inst_put]
  · intro a ea
    simp [inst_put, ea]

theorem live_succ {m : Mem} {P : List Addr} {p : Addr} (h : Good m (p :: P)) {c : Cell} (hi : inst m p = some c) :
    m.cells p = some (c, P.count p + 1) := by
  have hc := h.count p
  unfold inst at hi
  unfold refs at hc
  rcases e : m.cells p with _ | ⟨c', n⟩
  · rw [e] at hi; cases hi
  · rw [e] at hi hc
    simp at hi hc
    rw [hi, hc]

/-- Another pointer to the instance stays. -/
theorem good_release_shared {m : Mem} {P : List Addr} {p : Addr} (h : Good m (p :: P)) {c : Cell} (hi : inst m p = some c)
    (hp : p ∈ P) : ∃ m', m.release p = some m' ∧ Good m' P ∧ Same m m' P := by
  have e := live_succ h hi
  have := good_less h e
  refine ⟨_, ?_, this⟩
  unfold Mem.release
  have h1 := List.count_pos_iff.2 hp
  rw [e]
  obtain ⟨k, hk⟩ : ∃ k, P.count p = k + 1 := ⟨P.count p - 1, by omega⟩
  rw [hk]
  rfl

/-- The last pointer to the instance. -/
theorem good_release_last {m : Mem} {P : List Addr} {p : Addr} {c : Cell} (h : Good m (p :: (c.children ++ P)))
    (hi : inst m p = some c) (hp : p ∉ c.children ++ P) (ho : ∀ q ∈ c.children, (m.obj q).isSome) :
    ∃ m', m.release p = some m' ∧ Good m' P ∧ Same m m' P := by
  have e := live_succ h hi
  obtain ⟨g, s⟩ := good_less h e
  have h0 : (c.children ++ P).count p = 0 := List.count_eq_zero.2 hp
  rw [h0] at g s e
  simp only [if_true] at g s
  obtain ⟨m', e', g', s'⟩ := good_dropAll g fun q hq => by
    rw [obj_congr (s q (by simp [hq]))]
    exact ho q hq
  refine ⟨m', ?_, g', (s.mono (by intro a ha; simp [ha])).trans s'⟩
  unfold Mem.release
  rw [e]
  exact e'

theorem good_releaseAll {P : List Addr} : ∀ {D : List Row} {m : Mem}, Good m (ptrs D ++ P) → (ptrs D ++ P).Nodup →
    Placed m D → ∃ m', releaseAll m (D.map fun r => (r.name, r.ptr)) = some m' ∧ Good m' P ∧ Same m m' P
  | [], m, h, _, _ => ⟨m, rfl, h, same_refl _ _⟩
  | r :: D, m, h, hn, hp => by
    simp only [ptrs_cons, List.cons_append, List.append_assoc] at h hn
    obtain ⟨hi, hs⟩ := hp r (by simp)
    obtain ⟨m1, e1, g1, s1⟩ := good_release_last h hi (List.nodup_cons.1 hn).1 (shows_objs hs)
    have hn' := (List.nodup_append.1 (List.nodup_cons.1 hn).2).2.1
    obtain ⟨m2, e2, g2, s2⟩ := good_releaseAll g1 hn'
      (placed_congr (fun r hr => hp r (by simp [hr])) (s1.mono (by intro a ha; simp [ha])))
    refine ⟨m2, ?_, g2, (s1.mono (by intro a ha; simp [ha])).trans s2⟩
    simp only [List.map_cons, releaseAll, e1, e2]

/-! ### Messages to variables -/

/-- Both end in the same way, in related states. -/
def RunSim {σ τ : Type} (R : σ → τ → Prop) : Run σ → Run τ → Prop
  | .ret s a, .ret t b => a = b ∧ R s t
  | .thr s e, .thr t e' => e = e' ∧ R s t
  | .ub, .ub => True
  | _, _ => False

section
variable {ε τ : Type} [Entry ε τ] {A B : List Row} {n : Str} {p : Addr} {m : Mem}

theorem finish_sim {f : List ε → Cell} {k : List τ → Inst} (hf : ∀ s, (f s).children = held s)
    (hk : ∀ m s l, Reads m s l → Shows m (f s) (k l)) {out : Out (List ε) Str} {run : Run (List τ)}
    (hA : Placed m A) (hB : Placed m B) (h : Sim [] (p :: (ptrs A ++ ptrs B)) m out run) :
    RunSim (fun m' i => ∃ c, Rows m' (A ++ ⟨n, p, c, i⟩ :: B)) (finish p f out) (wrap k run) := by
  have key : ∀ {s : List ε} {m' : Mem} {l : List τ}, State [] (p :: (ptrs A ++ ptrs B)) m' s l →
      Same m m' ([] ++ p :: (ptrs A ++ ptrs B)) →
      ∃ m'', store p (f s) m' = some m'' ∧ ∃ c, Rows m'' (A ++ ⟨n, p, c, k l⟩ :: B) := by
    intro s m' l st sa
    obtain ⟨m'', e, g, hi, hs⟩ := good_store st.good (p := p) (by simp) (f s)
    have hnd := st.nodup
    rw [List.nodup_append] at hnd
    have hp := (List.nodup_cons.1 hnd.2.1).1
    have hne : ∀ a ∈ ptrs A ++ ptrs B, inst m'' a = inst m' a := fun a ha => hs a fun e => hp (e ▸ ha)
    refine ⟨m'', e, f s, ?_, ?_, ?_⟩
    · refine good_congr g ?_
      intro a
      simp only [ptrs_append, ptrs_cons, hf, List.count_append, List.count_cons, List.count_nil]
      omega
    · refine (List.Perm.nodup_iff ?_).1 st.nodup
      rw [List.perm_iff_count]
      intro a
      simp only [ptrs_append, ptrs_cons, hf, List.count_append, List.count_cons]
      omega
    · intro r hr
      rw [List.mem_append, List.mem_cons] at hr
      rcases hr with hr | rfl | hr
      · refine placed_congr hA ?_ r hr
        exact fun a ha => (hne a (by simp [ha])).trans (sa a (by simp [ha]))
      · refine ⟨hi, shows_congr (hk m' s l st.reads) ?_⟩
        rw [hf]
        intro a ha
        exact hs a fun e => hnd.2.2 a ha p (by simp) e
      · refine placed_congr hB ?_ r hr
        exact fun a ha => (hne a (by simp [ha])).trans (sa a (by simp [ha]))
  unfold Sim at h
  split at h
  · obtain ⟨m'', e, h'⟩ := key h.2.1 h.2.2
    simp only [finish, e, wrap]
    exact ⟨h.1, h'⟩
  · obtain ⟨m'', e, h'⟩ := key h.2.1 h.2.2
    simp only [finish, e, wrap]
    exact ⟨h.1, h'⟩
  · trivial
  · exact h.elim

end

theorem finishObj_sim {A B : List Row} {n : Str} {p : Addr} {m : Mem} {o : Obj} {i : Inst}
    (h : Rows m (A ++ ⟨n, p, .obj o, i⟩ :: B)) {σ : Type} (k : σ → Inst) (g : σ → Obj) (hk : ∀ v, k v = instOf (g v))
    (hc : ∀ v, cellOf (k v) = .obj (g v)) (run : Run σ) :
    RunSim (fun m' i => ∃ c, Rows m' (A ++ ⟨n, p, c, i⟩ :: B)) (finishObj p m (wrap k run)) (wrap k run) := by
  have key : ∀ v, ∃ m', store p (cellOf (k v)) m = some m' ∧ ∃ c, Rows m' (A ++ ⟨n, p, c, k v⟩ :: B) := by
    intro v
    obtain ⟨m', e, g', hi, hs⟩ := good_store h.good (p := p) (by simp) (cellOf (k v))
    have hnd : (p :: (ptrs A ++ ptrs B)).Nodup := by
      refine (List.Perm.nodup_iff ?_).1 h.nodup
      rw [List.perm_iff_count]
      intro a
      simp only [ptrs_append, ptrs_cons, Cell.children, List.count_append, List.count_cons, List.count_nil]
      omega
    have hne : ∀ a ∈ ptrs A ++ ptrs B, inst m' a = inst m a := fun a ha =>
      hs a fun e => (List.nodup_cons.1 hnd).1 (e ▸ ha)
    refine ⟨m', e, .obj (g v), ?_, ?_, ?_⟩
    · refine good_congr g' ?_
      intro a
      simp only [ptrs_append, ptrs_cons, Cell.children]
    · have := h.nodup
      simpa only [ptrs_append, ptrs_cons, Cell.children] using this
    · intro r hr
      rw [List.mem_append, List.mem_cons] at hr
      rcases hr with hr | rfl | hr
      · exact placed_congr (fun r hr => h.placed r (by simp [hr])) (fun a ha => hne a (by simp [ha])) r hr
      · exact ⟨by rw [hi, hc], hk v⟩
      · exact placed_congr (fun r hr => h.placed r (by simp [hr])) (fun a ha => hne a (by simp [ha])) r hr
  cases run with
  | ret v a =>
    obtain ⟨m', e, h'⟩ := key v
    simp only [wrap, finishObj, e]
    exact ⟨rfl, h'⟩
  | thr v e0 =>
    obtain ⟨m', e, h'⟩ := key v
    simp only [wrap, finishObj, e]
    exact ⟨rfl, h'⟩
  | ub => trivial

theorem receive_sim [PosSort] {A B : List Row} {n : Str} {p : Addr} {m : Mem} {c : Cell} {i : Inst}
    (h : Rows m (A ++ ⟨n, p, c, i⟩ :: B)) (cfg : Cfg) (name : Str) (args : List Str) :
    RunSim (fun m' i => ∃ c, Rows m' (A ++ ⟨n, p, c, i⟩ :: B)) (receive cfg p m name args)
      (@Knuckle.receive stdSortOf cfg i name args) := by
  obtain ⟨hi, hs⟩ := h.placed ⟨n, p, c, i⟩ (by simp)
  have hA : Placed m A := fun r hr => h.placed r (by simp [hr])
  have hB : Placed m B := fun r hr => h.placed r (by simp [hr])
  obtain ⟨k, hk⟩ : ∃ k, m.cells p = some (c, k) := by
    simp only at hi
    unfold inst at hi
    rcases e : m.cells p with _ | ⟨c', k⟩
    · rw [e] at hi; cases hi
    · rw [e] at hi; cases hi; exact ⟨k, rfl⟩
  have st : ∀ {ε τ : Type} [Entry ε τ] (s : List ε) (l : List τ), c.children = held s → Reads m s l →
      State [] (p :: (ptrs A ++ ptrs B)) m s l := by
    intro ε τ _ s l hc hr
    refine ⟨good_congr h.good ?_, (List.Perm.nodup_iff ?_).1 h.nodup, hr⟩
    · intro a
      simp only [ptrs_append, ptrs_cons, hc, List.count_append, List.count_cons, List.count_nil]
      omega
    · rw [List.perm_iff_count]
      intro a
      simp only [ptrs_append, ptrs_cons, hc, List.count_append, List.count_cons]
      omega
  unfold receive
  rw [hk]
  cases c with
  | obj o =>
    have hs : i = instOf o := hs
    subst hs
    cases o with
    | boolean v => exact finishObj_sim h Inst.boolean Obj.boolean (fun _ => rfl) (fun _ => rfl) _
    | character v => exact finishObj_sim h Inst.character Obj.character (fun _ => rfl) (fun _ => rfl) _
    | integer v => exact finishObj_sim h Inst.integer Obj.integer (fun _ => rfl) (fun _ => rfl) _
    | float v => exact finishObj_sim h Inst.float Obj.float (fun _ => rfl) (fun _ => rfl) _
    | string v => exact finishObj_sim h Inst.string Obj.string (fun _ => rfl) (fun _ => rfl) _
  | vector et s =>
    cases i with
    | vector et' l =>
      obtain ⟨rfl, hr⟩ := hs
      exact finish_sim (f := .vector et) (k := .vector et) (fun s => by rw [held_addr]; rfl) (fun m s l hr => ⟨rfl, hr⟩) hA hB
        (vector_sim (st s l (by rw [held_addr]; rfl) hr) ..)
    | _ => exact hs.elim
  | set et s =>
    cases i with
    | set et' l =>
      obtain ⟨rfl, hr⟩ := hs
      exact finish_sim (f := .set et) (k := .set et) (fun s => by rw [held_addr]; rfl) (fun m s l hr => ⟨rfl, hr⟩) hA hB
        (set_sim (st s l (by rw [held_addr]; rfl) hr) ..)
    | _ => exact hs.elim
  | dictionary kt vt s =>
    cases i with
    | dictionary kt' vt' l =>
      obtain ⟨rfl, rfl, hr⟩ := hs
      exact finish_sim (f := .dictionary kt vt) (k := .dictionary kt vt) (fun s => rfl) (fun m s l hr => ⟨rfl, rfl, hr⟩) hA hB
        (dict_sim (st s l rfl hr) ..)
    | _ => exact hs.elim

/-- Some rows. -/
def Stands (h : HCtx) (c : Ctx) : Prop := ∃ rs, Rep h c rs

theorem executeInVariable_sim [PosSort] {h : HCtx} {c : Ctx} (hr : Stands h c) (p : Parsed) :
    RunSim Stands (executeInVariable h p) (@Knuckle.executeInVariable stdSortOf c p) := by
  obtain ⟨rs, hr⟩ := hr
  unfold executeInVariable Knuckle.executeInVariable
  rw [hr.vars, hr.vals]
  rcases find_rows p.actor rs with hf | ⟨A, r, B, rfl, hn, hA, hf⟩
  · rw [hf, hf]
    exact ⟨rfl, rs, hr⟩
  · rw [hf, hf]
    have := receive_sim (n := r.name) (p := r.ptr) (c := r.cell) (i := r.val) hr.rows c.cfg p.name p.args
    simp only
    rw [hr.cfg]
    unfold RunSim at this
    split at this
    · rename_i e1 e2
      rw [e1, e2]
      obtain ⟨ha, c', hR⟩ := this
      refine ⟨ha, _, hR, ?_, ?_, rfl, hr.fileOpen, hr.quiet, hr.fileLog, hr.stdoutLog⟩
      · simp
      · simp only
        rw [update_rows (fun r => r.val) _ hn hA]; simp [hn]
    · rename_i e1 e2
      rw [e1, e2]
      obtain ⟨ha, c', hR⟩ := this
      refine ⟨ha, _, hR, ?_, ?_, rfl, hr.fileOpen, hr.quiet, hr.fileLog, hr.stdoutLog⟩
      · simp
      · simp only
        rw [update_rows (fun r => r.val) _ hn hA]; simp [hn]
    · rename_i e1 e2
      rw [e1, e2]
      trivial
    · exact this.elim

/-! ### Creating variables -/

theorem stands_mem {h : HCtx} {c : Ctx} {rs rs' : List Row} (hr : Rep h c rs) {m : Mem} (hR : Rows m rs')
    {vs : List (Str × Addr)} (hv : vs = rs'.map fun r => (r.name, r.ptr)) {ws : List (Str × Inst)}
    (hw : ws = rs'.map fun r => (r.name, r.val)) :
    Stands { h with vars := vs, mem := m } { c with vars := ws } :=
  ⟨rs', hR, hv, hw, hr.cfg, hr.fileOpen, hr.quiet, hr.fileLog, hr.stdoutLog⟩

/-- What `P` says holds of the result, if there is one. -/
def AllOk {α : Type} (P : α → Prop) (x : Res α) : Prop := ∀ a, x = .ok a → P a

theorem allOk_ok {α : Type} {P : α → Prop} {a : α} (h : P a) : AllOk P (.ok a) := by
  intro b e; cases e; exact h

theorem allOk_err {α : Type} {P : α → Prop} {e : Exc} : AllOk P (.err e) := by
  intro b e; cases e

theorem allOk_bind {α β : Type} {P : β → Prop} {Q : α → Prop} {x : Res α} {f : α → Res β} (hx : AllOk Q x)
    (h : ∀ a, Q a → AllOk P (f a)) : AllOk P (x >>= f) := by
  intro b e
  rcases x with a | e' | _
  · exact h a (hx a rfl) b e
  · cases e
  · cases e

theorem allOk_any {α : Type} (x : Res α) : AllOk (fun _ => True) x := fun _ _ => trivial

/-- An instance that holds no pointers and is not lost by `cellOf`. -/
def Bare (i : Inst) : Prop := ∀ m, (cellOf i).children = [] ∧ Shows m (cellOf i) i

theorem bare_obj (o : Obj) : Bare (instOf o) := by cases o <;> exact fun m => ⟨rfl, rfl⟩
theorem bare_vector (et : Str) : Bare (.vector et []) := fun _ => ⟨rfl, rfl, rfl⟩
theorem bare_set (et : Str) : Bare (.set et []) := fun _ => ⟨rfl, rfl, rfl⟩
theorem bare_dictionary (kt vt : Str) : Bare (.dictionary kt vt []) := fun _ => ⟨rfl, rfl, rfl, rfl⟩

theorem bare_withValue {f : Str → Res Inst} {valid : Str → Bool} (h : ∀ b, AllOk Bare (f b)) (args : List Str) :
    AllOk (fun x => Bare x.2) (constructWithValue f valid args) := by
  unfold constructWithValue
  split
  · split
    · exact allOk_err
    · exact allOk_bind (h _) fun a ha => allOk_ok ha
  · exact allOk_err

theorem bare_empty {i : Inst} (h : Bare i) (args : List Str) : AllOk (fun x => Bare x.2) (constructEmpty i args) := by
  unfold constructEmpty
  split
  · split
    · exact allOk_err
    · exact allOk_ok h
  · exact allOk_err

theorem bare_container {i : Inst} (h : Bare i) (name : Str) (args : List Str) :
    AllOk (fun x => Bare x.2) (newContainer i name args) := by
  unfold newContainer
  split
  · exact bare_empty h args
  · exact allOk_err

/-- The pair, if there is one. -/
def BareSome (o : Option (Str × Inst)) : Prop := ∀ x, o = some x → Bare x.2

theorem bare_some {x : Res (Str × Inst)} (h : AllOk (fun x => Bare x.2) x) :
    AllOk BareSome (x >>= fun y => .ok (some y)) :=
  allOk_bind h fun _ ha => allOk_ok fun _ e => by cases e; exact ha

theorem bare_dict (name : Str) (args : List Str) : ∀ (ts pre : Str) (acc : Option (Str × Inst)), BareSome acc →
    AllOk BareSome (dictInstances name args pre ts acc)
  | [], _, _, h => allOk_ok h
  | c :: cs, pre, acc, h => by
    unfold dictInstances
    split
    · refine allOk_bind (bare_container (i := .dictionary pre cs []) (fun m => ⟨rfl, rfl, rfl, rfl⟩) name args) fun a ha => ?_
      exact bare_dict name args cs _ _ fun _ e => by cases e; exact ha
    · exact bare_dict name args cs _ _ h

theorem bare_make (actor name : Str) (args : List Str) : AllOk BareSome (makeInstance actor name args) := by
  unfold makeInstance
  simp only
  split
  · refine bare_some ?_
    unfold newBoolean
    split
    · refine bare_withValue (fun b => allOk_ok (bare_obj (.boolean _))) args
    · exact allOk_err
  split
  · refine bare_some ?_
    unfold newCharacter
    split
    · refine bare_withValue (fun b => allOk_ok (bare_obj (.character _))) args
    · exact allOk_err
  split
  · refine bare_some ?_
    unfold newInteger
    split
    · refine bare_withValue (fun b => allOk_bind (allOk_any _) fun _ _ => allOk_bind (allOk_any _) fun _ _ =>
        allOk_ok (bare_obj (.integer _))) args
    · exact allOk_err
  split
  · refine bare_some ?_
    unfold newFloat
    split
    · refine bare_withValue (fun b => allOk_ok (bare_obj (.float _))) args
    · exact allOk_err
  split
  · refine bare_some ?_
    unfold newString
    split
    · exact bare_empty (bare_obj (.string [])) args
    · split
      · refine bare_withValue (fun b => allOk_ok (bare_obj (.string _))) args
      · exact allOk_err
  split
  · exact allOk_bind (allOk_any _) fun _ _ => bare_some (bare_container (bare_vector _) name args)
  split
  · exact allOk_bind (allOk_any _) fun _ _ => bare_some (bare_container (bare_set _) name args)
  split
  · exact allOk_bind (allOk_any _) fun _ _ => bare_dict name args _ _ _ fun _ e => by cases e
  · exact allOk_ok fun _ e => by cases e

theorem executeInType_sim {h : HCtx} {c : Ctx} (hr : Stands h c) (p : Parsed) :
    RunSim Stands (executeInType h p) (Knuckle.executeInType c p) := by
  obtain ⟨rs, hr⟩ := hr
  have hi : ∀ n i, makeInstance p.actor p.name p.args = .ok (some (n, i)) → Bare i := fun n i e => bare_make _ _ _ _ e _ rfl
  unfold executeInType Knuckle.executeInType
  rcases e : makeInstance p.actor p.name p.args with (_ | ⟨n, i⟩) | _ | _
  · trivial
  · obtain ⟨hc, -⟩ := hi n i e h.mem
    obtain ⟨g, hq, hin, hs⟩ := good_new hr.rows.good (cellOf i)
    simp only [Res.bind_ok]
    rw [hr.vars, hr.vals]
    rcases find_rows n rs with hf | ⟨A, r, B, rfl, hn, hA, hf⟩
    · rw [hf, hf]
      simp only
      obtain ⟨m1, e1, g1, s1⟩ := good_copy g (p := (h.mem.new (cellOf i)).1) (by simp)
      obtain ⟨m2, e2, g2, s2⟩ := good_release_shared g1 (c := cellOf i) (by rw [s1, hin]) (by simp)
      obtain ⟨A, B, rfl, hins⟩ := insert_rows n rs (hf _)
      rw [e1]
      simp only [leaving, e2]
      rw [hins, hins]
      have hall : Same h.mem m2 (ptrs (A ++ B)) := fun a ha =>
        (s2 a (List.mem_cons_of_mem _ ha)).trans ((s1 a).trans (hs a ha))
      refine ⟨rfl, ?_⟩
      refine stands_mem (rs' := A ++ ⟨n, (h.mem.new (cellOf i)).1, cellOf i, i⟩ :: B) hr ⟨?_, ?_, ?_⟩ (by simp) (by simp)
      · refine good_congr g2 ?_
        intro a
        simp only [ptrs_append, ptrs_cons, hc, List.count_append, List.count_cons, List.count_nil]
        omega
      · refine (List.Perm.nodup_iff ?_).1 (List.nodup_cons.2 ⟨hq, hr.rows.nodup⟩)
        rw [List.perm_iff_count]
        intro a
        simp only [ptrs_append, ptrs_cons, hc, List.count_append, List.count_cons, List.count_nil]
        omega
      · have hp := placed_congr hr.rows.placed hall
        intro r hr'
        rw [List.mem_append, List.mem_cons] at hr'
        rcases hr' with hr' | rfl | hr'
        · exact hp r (by simp [hr'])
        · refine ⟨?_, (hi n i e m2).2⟩
          simp only
          rw [s2 _ (by simp), s1, hin]
        · exact hp r (by simp [hr'])
    · rw [hf, hf]
      obtain ⟨m2, e2, g2, s2⟩ := good_release_last (c := cellOf i) (P := ptrs (A ++ r :: B)) (by rw [hc]; exact g) hin
        (by rw [hc]; exact hq) (by rw [hc]; intro q hq; cases hq)
      have hR : Rows m2 (A ++ r :: B) := ⟨g2, hr.rows.nodup, placed_congr hr.rows.placed (hs.trans s2)⟩
      have := stands_mem hr hR hr.vars hr.vals
      simp only [leaving, e2]
      by_cases hx : startsWith p.name b!"createIfNotExists:" = true
      · rw [if_pos hx, if_pos hx]
        refine ⟨rfl, ?_⟩
        rw [← hr.vars]
        exact this
      · rw [if_neg hx, if_neg hx]
        refine ⟨rfl, ?_⟩
        rw [← hr.vars]
        exact this
  · exact ⟨rfl, rs, hr⟩
  · trivial

/-! ### Messages to the context -/

/-- Both end in the same way, in related states. -/
def ResSim {σ τ : Type} (R : σ → τ → Prop) : Res (σ × Str) → Res (τ × Str) → Prop
  | .ok (s, a), .ok (t, b) => a = b ∧ R s t
  | .err e, .err e' => e = e'
  | .ub, .ub => True
  | _, _ => False

theorem run_sim {σ τ : Type} {R : σ → τ → Prop} {s : σ} {t : τ} (h : R s t) {x : Res (σ × Str)} {y : Res (τ × Str)}
    (hx : ResSim R x y) : RunSim R (x.run s) (y.run t) := by
  rcases x with ⟨_, _⟩ | _ | _ <;> rcases y with ⟨_, _⟩ | _ | _ <;>
    first | exact hx | exact hx.elim | exact ⟨hx, h⟩

theorem op0_sim {σ τ : Type} {R : σ → τ → Prop} {s : σ} {t : τ} (h : R s t) {x : Res (σ × Str)} {y : Res (τ × Str)}
    (hx : ResSim R x y) (args : List Str) : RunSim R (op0 s x args) (op0 t y args) := by
  cases args with
  | nil => exact run_sim h hx
  | cons a as => exact ⟨rfl, h⟩

theorem op1_sim {σ τ : Type} {R : σ → τ → Prop} {s : σ} {t : τ} (h : R s t) {x : Str → Res (σ × Str)}
    {y : Str → Res (τ × Str)} (hx : ∀ a, ResSim R (x a) (y a)) (args : List Str) : RunSim R (op1 s x args) (op1 t y args) := by
  rcases args with _ | ⟨a, _ | ⟨b, bs⟩⟩
  · exact ⟨rfl, h⟩
  · exact run_sim h (hx a)
  · exact ⟨rfl, h⟩

theorem dispatch_sim {σ τ : Type} {R : σ → τ → Prop} {s : σ} {t : τ} (h : R s t) (name : Str) (args : List Str) :
    ∀ {T : Knuckle.Table σ} {U : Knuckle.Table τ},
      List.Forall₂ (fun x y => x.1 = y.1 ∧ RunSim R (x.2 args) (y.2 args)) T U →
      RunSim R (Knuckle.dispatch s T name args) (Knuckle.dispatch t U name args)
  | _, _, .nil => ⟨rfl, h⟩
  | _, _, .cons (a := x) (b := y) hxy hr => by
    obtain ⟨n, f⟩ := x
    obtain ⟨n', g⟩ := y
    obtain ⟨e, hs⟩ := hxy
    simp only at e hs
    subst e
    simp only [Knuckle.dispatch]
    split
    · exact hs
    · exact dispatch_sim h name args hr

theorem namespaces_names {α β : Type} : ∀ (l : List (Str × α)) (l' : List (Str × β)), l.map (·.1) = l'.map (·.1) →
    allNamespaces l = allNamespaces l' := by
  have key : ∀ {γ : Type} (l : List (Str × γ)), allNamespaces l =
      (l.map (·.1)).foldl (fun acc v => (namespacesOf [] v).foldl (fun acc n => setInsert strLt n acc) acc) [] := by
    intro γ l
    rw [List.foldl_map]
    rfl
  intro l l' h
  rw [key, key, h]

theorem listOf_names {α β : Type} (pre : Str) : ∀ (l : List (Str × α)) (l' : List (Str × β)) (acc : Str),
    l.map (·.1) = l'.map (·.1) → listOfNamespaceLoop pre l acc = listOfNamespaceLoop pre l' acc
  | [], [], _, _ => rfl
  | [], _ :: _, _, h => by cases h
  | _ :: _, [], _, h => by cases h
  | v :: vs, w :: ws, acc, h => by
    simp only [List.map_cons, List.cons.injEq] at h
    simp only [listOfNamespaceLoop, h.1]
    split
    · exact listOf_names pre vs ws _ h.2
    · exact listOf_names pre vs ws _ h.2

theorem rep_names {h : HCtx} {c : Ctx} {rs : List Row} (hr : Rep h c rs) : h.vars.map (·.1) = c.vars.map (·.1) := by
  rw [hr.vars, hr.vals]; simp

theorem rows_filter {m : Mem} {rs : List Row} (h : Rows m rs) (P : Row → Bool) :
    ∃ m', releaseAll m ((rs.filter P).map fun r => (r.name, r.ptr)) = some m' ∧ Rows m' (rs.filter fun r => !P r) := by
  have hp : (ptrs rs).Perm (ptrs (rs.filter P) ++ ptrs (rs.filter fun r => !P r)) := by
    have := (List.filter_append_perm P rs).symm.flatMap_right Row.ptrs
    rw [List.flatMap_append] at this
    exact this
  have hn := hp.nodup_iff.1 h.nodup
  obtain ⟨m', e, g, s⟩ := good_releaseAll (P := ptrs (rs.filter fun r => !P r)) (good_congr h.good hp.count_eq) hn
    (fun r hr => h.placed r (List.mem_of_mem_filter hr))
  exact ⟨m', e, g, (List.nodup_append.1 hn).2.1,
    placed_congr (fun r hr => h.placed r (List.mem_of_mem_filter hr)) s⟩

theorem deleteVariable_sim {h : HCtx} {c : Ctx} (hr : Stands h c) (args : List Str) :
    RunSim Stands (opDeleteVariable h args) (Knuckle.opDeleteVariable c args) := by
  refine op1_sim hr (fun a => ?_) args
  obtain ⟨rs, hr⟩ := hr
  split
  · rfl
  · rw [hr.vars, hr.vals]
    rcases erase_rows a rs with he | ⟨A, r, B, rfl, he, hf⟩
    · rw [he, he]
      rfl
    · rw [he, he, hf]
      have hp : (ptrs (A ++ r :: B)).Perm (ptrs [r] ++ ptrs (A ++ B)) := by
        rw [List.perm_iff_count]
        intro a
        simp only [ptrs_append, ptrs_cons, ptrs_nil, List.count_append, List.count_cons, List.count_nil]
        omega
      have hn := hp.nodup_iff.1 hr.rows.nodup
      obtain ⟨m', e, g, s⟩ := good_releaseAll (D := [r]) (P := ptrs (A ++ B)) (good_congr hr.rows.good hp.count_eq) hn
        (fun r hr' => hr.rows.placed r (by simp at hr'; simp [hr']))
      have hR : Rows m' (A ++ B) := ⟨g, (List.nodup_append.1 hn).2.1,
        placed_congr (fun r hr' => hr.rows.placed r (by simp at hr' ⊢; tauto)) s⟩
      simp only [List.map_cons, List.map_nil] at e
      simp only [Option.toList, e]
      exact ⟨rfl, stands_mem hr hR rfl rfl⟩

theorem deleteVariables_sim {h : HCtx} {c : Ctx} (hr : Stands h c) (args : List Str) :
    RunSim Stands (opDeleteVariablesOfNamespace h args) (Knuckle.opDeleteVariablesOfNamespace c args) := by
  refine op1_sim hr (fun a => ?_) args
  obtain ⟨rs, hr⟩ := hr
  split
  · rfl
  · rw [hr.vars, hr.vals]
    obtain ⟨m', e, hR⟩ := rows_filter hr.rows fun r => startsWith r.name (a ++ b!"::")
    simp only [List.filter_map, Function.comp_def, e]
    exact ⟨rfl, stands_mem hr hR rfl rfl⟩

theorem context_sim {h : HCtx} {c : Ctx} (hr : Stands h c) (name : Str) (args : List Str) :
    RunSim Stands (Knuckle.dispatch h (contextTable h) name args) (Knuckle.dispatch c (Knuckle.contextTable c) name args) := by
  refine dispatch_sim hr name args ?_
  have hr' := hr
  obtain ⟨rs, hr⟩ := hr
  unfold contextTable Knuckle.contextTable
  refine .cons ⟨rfl, op0_sim hr' ?_ args⟩ <| .cons ⟨rfl, op0_sim hr' ?_ args⟩ <| .cons ⟨rfl, op1_sim hr' (fun a => ?_) args⟩ <|
    .cons ⟨rfl, deleteVariable_sim hr' args⟩ <| .cons ⟨rfl, deleteVariables_sim hr' args⟩ <| .cons ⟨rfl, ?_, hr'⟩ <|
    .cons ⟨rfl, op1_sim hr' (fun a => ?_) args⟩ <| .cons ⟨rfl, ?_, hr'⟩ <| .cons ⟨rfl, op1_sim hr' (fun a => ?_) args⟩ .nil
  · exact ⟨by rw [namespaces_names _ _ (rep_names hr)], hr'⟩
  · exact ⟨by rw [rep_names hr], hr'⟩
  · split
    · rfl
    · exact ⟨by rw [listOf_names _ _ _ _ (rep_names hr)], hr'⟩
  · rw [hr.cfg]
  · rcases integerLit a with p | e | _
    · simp only [Res.bind_ok]
      split
      · rfl
      · exact ⟨rfl, rs, hr.rows, hr.vars, hr.vals, by simp only [hr.cfg], hr.fileOpen, hr.quiet, hr.fileLog, hr.stdoutLog⟩
    · rfl
    · trivial
  · rw [hr.cfg]
  · rcases floatLit a with p | e | _
    · simp only [Res.bind_ok]
      split
      · rfl
      · exact ⟨rfl, rs, hr.rows, hr.vars, hr.vals, by simp only [hr.cfg], hr.fileOpen, hr.quiet, hr.fileLog, hr.stdoutLog⟩
    · rfl
    · trivial

/-! ### Requests -/

theorem keep_sim {h : Run HCtx} {c : Run Ctx} (s : Option Session) (hr : RunSim Stands h c) :
    RunSim (fun x y => Stands x.1 y.1 ∧ x.2 = y.2) (keep s h) (keep s c) := by
  rcases h with ⟨_, _⟩ | ⟨_, _⟩ | _ <;> rcases c with ⟨_, _⟩ | ⟨_, _⟩ | _ <;>
    first | exact hr.elim | exact ⟨hr.1, hr.2, rfl⟩ | trivial

theorem executeParsed_sim [PosSort] (pwd : Str) {h : HCtx} {c : Ctx} (hr : Stands h c) (s : Option Session) (p : Parsed) :
    RunSim (fun x y => Stands x.1 y.1 ∧ x.2 = y.2) (executeParsed pwd h s p) (@Knuckle.executeParsed stdSortOf pwd c s p) := by
  unfold executeParsed Knuckle.executeParsed
  split
  · have := keep_sim s (executeInType_sim hr p)
    revert this
    generalize Knuckle.executeInType c p = y
    intro this
    cases y <;> exact this
  · split
    · have := keep_sim s (context_sim hr p.name p.args)
      revert this
      generalize Knuckle.dispatch c (Knuckle.contextTable c) p.name p.args = y
      intro this
      cases y <;> exact this
    · split
      · have := keep_sim s (executeInVariable_sim hr p)
        revert this
        generalize @Knuckle.executeInVariable stdSortOf c p = y
        intro this
        cases y <;> exact this
      · split
        · cases s with
          | none => trivial
          | some s =>
            simp only
            rcases s.receive pwd p.name p.args with ⟨_, _⟩ | ⟨_, _⟩ | _
            · exact ⟨rfl, hr, rfl⟩
            · exact ⟨rfl, hr, rfl⟩
            · trivial
        · exact ⟨rfl, hr, rfl⟩

theorem record_stands {h : HCtx} {c : Ctx} (hr : Stands h c) (i o : Str) : Stands (h.record i o) (c.record i o) := by
  obtain ⟨rs, hr⟩ := hr
  refine ⟨rs, ?_⟩
  unfold HCtx.record Ctx.record
  rw [hr.fileOpen, hr.quiet]
  split
  · exact ⟨hr.rows, hr.vars, hr.vals, hr.cfg, rfl, rfl, by simp only [hr.fileLog], hr.stdoutLog⟩
  · split
    · exact ⟨hr.rows, hr.vars, hr.vals, hr.cfg, rfl, rfl, hr.fileLog, by simp only [hr.stdoutLog]⟩
    · exact hr

/-- The two models execute a request alike. -/
theorem execute_sim [PosSort] (pwd : Str) {h : HCtx} {c : Ctx} (hr : Stands h c) (s : Option Session) (text : Str) :
    (∃ h' c' s' r, execute pwd h s text = .done (h', s', r) ∧ @Knuckle.execute stdSortOf pwd c s text = .done (c', s', r) ∧
      Stands h' c') ∨ (execute pwd h s text = .ub ∧ @Knuckle.execute stdSortOf pwd c s text = .ub) := by
  unfold execute Knuckle.execute
  rcases parse text with p | e | _
  · have := executeParsed_sim pwd hr s p
    simp only
    revert this
    generalize executeParsed pwd h s p = x
    generalize @Knuckle.executeParsed stdSortOf pwd c s p = y
    intro this
    rcases x with ⟨⟨_, _⟩, _⟩ | ⟨⟨_, _⟩, _⟩ | _ <;> rcases y with ⟨⟨_, _⟩, _⟩ | ⟨⟨_, _⟩, _⟩ | _ <;>
      first
      | exact this.elim
      | (obtain ⟨e1, e2, e3⟩ := this
         simp only at e1 e2 e3
         subst e1 e3
         exact .inl ⟨_, _, _, _, rfl, rfl, record_stands e2 _ _⟩)
      | exact .inr ⟨rfl, rfl⟩
  · exact .inl ⟨_, _, _, _, rfl, rfl, record_stands hr _ _⟩
  · exact .inr ⟨rfl, rfl⟩

end Knuckle.Heap

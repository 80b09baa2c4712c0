/-
The invariant of contexts, and what each kind of statement does to the data.
-/
import Verif.Proofs.Creation
import Verif.Proofs.Execute
import Verif.Proofs.Order

namespace Knuckle

open Spec

/-! ### Lists of variables -/

theorem lookup_some_mem {l : List (Str × Inst)} {n : Str} {i : Inst} (h : l.lookup n = some i) : (n, i) ∈ l := by
  induction l with
  | nil => simp at h
  | cons x xs ih =>
    obtain ⟨m, j⟩ := x
    rw [List.lookup_cons] at h
    by_cases e : n = m
    · subst e; simp at h; simp [h]
    · rw [beq_false_of_ne e] at h; simp [ih h]

theorem lookup_isSome_iff {l : List (Str × Inst)} {n : Str} : (∃ i, l.lookup n = some i) ↔ n ∈ l.map (·.1) := by
  induction l with
  | nil => simp
  | cons x xs ih =>
    obtain ⟨m, j⟩ := x
    rw [List.lookup_cons]
    by_cases e : n = m
    · subst e; simp
    · rw [beq_false_of_ne e, ih]
      constructor
      · intro h; exact List.mem_cons_of_mem _ h
      · intro h
        rcases List.mem_cons.1 h with h | h
        · exact absurd h e
        · exact h

theorem lookup_none_iff {l : List (Str × Inst)} {n : Str} : l.lookup n = none ↔ n ∉ l.map (·.1) := by
  rw [← lookup_isSome_iff]; cases l.lookup n <;> simp

/-- In an ordered list every entry is found. -/
theorem lookup_of_mem {l : List (Str × Inst)} (ha : Asc strLt (l.map (·.1))) {n : Str} {i : Inst} (h : (n, i) ∈ l) :
    l.lookup n = some i := by
  induction l with
  | nil => simp at h
  | cons x xs ih =>
    obtain ⟨m, j⟩ := x
    replace ha := List.pairwise_cons.1 ha
    rw [List.lookup_cons]
    rcases List.mem_cons.1 h with h | h
    · cases h; simp
    · have : m ≠ n := by
        rintro rfl
        have := ha.1 m (List.mem_map_of_mem (f := (·.1)) h)
        rw [strLt_irrefl] at this; cases this
      rw [beq_false_of_ne this.symm]; exact ih ha.2 h

theorem updateVar_names (n : Str) (i : Inst) (l : List (Str × Inst)) : (updateVar n i l).map (·.1) = l.map (·.1) := by
  induction l with
  | nil => rfl
  | cons x xs ih => simp only [updateVar]; split <;> simp [ih]

theorem updateVar_lookup (n : Str) (i : Inst) (l : List (Str × Inst)) (h : n ∈ l.map (·.1)) (m : Str) :
    (updateVar n i l).lookup m = if m = n then some i else l.lookup m := by
  induction l with
  | nil => simp at h
  | cons x xs ih =>
    obtain ⟨k, j⟩ := x
    simp only [updateVar]
    by_cases e : k = n
    · subst e
      simp only [beq_self_eq_true, if_true, List.lookup_cons]
      by_cases e' : m = k
      · subst e'; simp
      · rw [beq_false_of_ne e']; simp [e']
    · have h' : n ∈ xs.map (·.1) := by
        rcases List.mem_cons.1 h with h | h
        · exact absurd h.symm e
        · exact h
      rw [beq_false_of_ne e]
      simp only [Bool.false_eq_true, if_false, List.lookup_cons]
      by_cases e' : m = k
      · subst e'; simp [e]
      · rw [beq_false_of_ne e']; exact ih h'

theorem updateVar_same (n : Str) (i : Inst) (l : List (Str × Inst)) (h : l.lookup n = some i) : updateVar n i l = l := by
  induction l with
  | nil => rfl
  | cons x xs ih =>
    obtain ⟨k, j⟩ := x
    simp only [updateVar]
    rw [List.lookup_cons] at h
    by_cases e : n = k
    · subst e; simp at h; simp [h]
    · rw [beq_false_of_ne e] at h
      rw [beq_false_of_ne (Ne.symm e)]; simp [ih h]

theorem updateVar_mem (n : Str) (i : Inst) (l : List (Str × Inst)) (v : Str × Inst) (h : v ∈ updateVar n i l) :
    v ∈ l ∨ (v = (n, i) ∧ n ∈ l.map (·.1)) := by
  induction l with
  | nil => simp [updateVar] at h
  | cons x xs ih =>
    obtain ⟨k, j⟩ := x
    simp only [updateVar] at h
    by_cases e : k = n
    · subst e
      simp only [beq_self_eq_true, if_true] at h
      rcases List.mem_cons.1 h with h | h
      · exact .inr ⟨h, by simp⟩
      · exact .inl (List.mem_cons_of_mem _ h)
    · rw [beq_false_of_ne e] at h
      rcases List.mem_cons.1 h with h | h
      · rw [h]; exact .inl (by simp)
      · rcases ih h with h | ⟨h, h'⟩
        · exact .inl (List.mem_cons_of_mem _ h)
        · exact .inr ⟨h, List.mem_cons_of_mem _ h'⟩

theorem mapInsert_asc (n : Str) (i : Inst) (l : List (Str × Inst)) (ha : Asc strLt (l.map (·.1))) :
    Asc strLt ((mapInsert strLt n i l).map (·.1)) := by
  rw [mapInsert_keys]
  exact setInsert_asc (strLt_sto fun _ => True).swo n trivial _ (fun _ _ => trivial) ha

theorem mapInsert_lookup (n : Str) (i : Inst) (l : List (Str × Inst)) (ha : Asc strLt (l.map (·.1))) (m : Str) :
    (mapInsert strLt n i l).lookup m = if m = n then some i else l.lookup m := by
  rw [← mapFind_lookup m _ (mapInsert_asc n i l ha), ← mapFind_lookup m l ha]
  exact mapFind_mapInsert (strLt_sto fun _ => True) n m i l trivial trivial (fun _ _ => trivial) ha

theorem filter_lookup (p : Str → Bool) (l : List (Str × Inst)) (m : Str) :
    (l.filter fun v => p v.1).lookup m = if p m then l.lookup m else none := by
  induction l with
  | nil => simp
  | cons x xs ih =>
    obtain ⟨k, j⟩ := x
    rw [List.filter_cons]
    by_cases hk : p k = true
    · simp only [hk, if_true, List.lookup_cons]
      by_cases e : m = k
      · subst e; simp [hk]
      · rw [beq_false_of_ne e]; exact ih
    · simp only [hk, Bool.false_eq_true, if_false, ih, List.lookup_cons]
      by_cases e : m = k
      · subst e; simp [hk]
      · rw [beq_false_of_ne e]

theorem eraseName_eq (n : Str) (l : List (Str × Inst)) (ha : Asc strLt (l.map (·.1))) :
    eraseName n l = if n ∈ l.map (·.1) then some (l.filter fun v => !(v.1 == n)) else none := by
  induction l with
  | nil => simp [eraseName]
  | cons x xs ih =>
    obtain ⟨k, j⟩ := x
    replace ha := List.pairwise_cons.1 ha
    simp only [eraseName]
    by_cases e : k = n
    · subst e
      simp only [beq_self_eq_true, if_true, List.map_cons, List.mem_cons, true_or]
      congr 1
      rw [List.filter_cons]
      simp only [beq_self_eq_true, Bool.not_true, Bool.false_eq_true, if_false]
      rw [eq_comm, List.filter_eq_self]
      intro v hv
      have : v.1 ≠ k := by
        intro e; have := ha.1 v.1 (List.mem_map_of_mem (f := (·.1)) hv)
        rw [e, strLt_irrefl] at this; cases this
      simp [this]
    · rw [beq_false_of_ne e]
      simp only [Bool.false_eq_true, if_false, ih ha.2]
      by_cases h : n ∈ xs.map (·.1)
      · rw [if_pos h, if_pos (by rw [List.map_cons]; exact List.mem_cons_of_mem _ h), List.filter_cons, beq_false_of_ne e]; simp
      · rw [if_neg h, if_neg]
        · rfl
        · intro h'
          rcases List.mem_cons.1 h' with h' | h'
          · exact e h'.symm
          · exact h h'

theorem filter_asc (p : Str → Bool) (l : List (Str × Inst)) (ha : Asc strLt (l.map (·.1))) :
    Asc strLt ((l.filter fun v => p v.1).map (·.1)) := by
  unfold Asc at *
  rw [List.pairwise_map] at *
  exact ha.filter _

/-- An ordered list of variables is determined by its lookups. -/
theorem vars_ext (l l' : List (Str × Inst)) (ha : Asc strLt (l.map (·.1))) (ha' : Asc strLt (l'.map (·.1)))
    (h : ∀ n, l.lookup n = l'.lookup n) : l = l' := by
  have hm : ∀ v, v ∈ l ↔ v ∈ l' := by
    intro v
    constructor
    · intro hv; exact lookup_some_mem (by rw [← h]; exact lookup_of_mem ha hv)
    · intro hv; exact lookup_some_mem (by rw [h]; exact lookup_of_mem ha' hv)
  have ha1 : l.Pairwise fun a b => strLt a.1 b.1 = true := List.pairwise_map.1 ha
  have ha1' : l'.Pairwise fun a b => strLt a.1 b.1 = true := List.pairwise_map.1 ha'
  have nd : ∀ {l : List (Str × Inst)}, (l.Pairwise fun a b => strLt a.1 b.1 = true) → l.Nodup := fun h =>
    h.imp fun {a b} hab => by rintro rfl; rw [strLt_irrefl] at hab; cases hab
  have hp : l.Perm l' := (List.perm_ext_iff_of_nodup (nd ha1) (nd ha1')).2 hm
  refine hp.eq_of_pairwise ?_ ha1 ha1'
  intro a b _ _ h1 h2
  rw [strLt_asymm _ _ h1] at h2; cases h2

/-! ### The invariant -/

/-- Names are in ascending order, variables have well-formed names and well-typed values, the tolerance is a `float`. -/
structure Inv (c : Ctx) : Prop where
  asc : Asc strLt (c.vars.map (·.1))
  vars : ∀ v ∈ c.vars, Variable v.1 ∧ WellTyped v.2
  eps : c.cfg.eps.toF32 = c.cfg.eps

theorem Inv.find {c : Ctx} (h : Inv c) (n : Str) : mapFind strLt n c.vars = c.vars.lookup n := mapFind_lookup n _ h.asc

theorem Inv.wellTyped {c : Ctx} (h : Inv c) {n : Str} {i : Inst} (hn : c.vars.lookup n = some i) : WellTyped i :=
  (h.vars _ (lookup_some_mem hn)).2

theorem Inv.record {c : Ctx} (h : Inv c) (i o : Str) : Inv (c.record i o) :=
  ⟨by rw [record_vars]; exact h.asc, by rw [record_vars]; exact h.vars, by rw [record_cfg]; exact h.eps⟩

theorem Inv.filter {c : Ctx} (h : Inv c) (p : Str → Bool) : Inv { c with vars := c.vars.filter fun v => p v.1 } :=
  ⟨filter_asc p _ h.asc, fun v hv => h.vars v (List.mem_of_mem_filter hv), h.eps⟩

/-! ### Statements to variables -/

/-- A context with one variable changed. -/
abbrev setVar (c : Ctx) (n : Str) (i : Inst) : Ctx := { c with vars := updateVar n i c.vars }

theorem onlyChanged_setVar (c : Ctx) (n : Str) (i j : Inst) (h : c.vars.lookup n = some j) :
    OnlyChanged c (setVar c n i) n i :=
  ⟨rfl, updateVar_names n i c.vars, updateVar_lookup n i c.vars (lookup_isSome_iff.1 ⟨j, h⟩)⟩

theorem onlyChanged_record (c c' : Ctx) (n : Str) (i : Inst) (x y : Str) (h : OnlyChanged c c' n i) :
    OnlyChanged c (c'.record x y) n i := by
  unfold OnlyChanged; rw [record_vars, record_cfg]; exact h

theorem setVar_same (c : Ctx) (n : Str) (i : Inst) (h : c.vars.lookup n = some i) : setVar c n i = c := by
  unfold setVar; rw [updateVar_same n i _ h]

theorem executeInVariable_none [StdSort] (c : Ctx) (hc : Inv c) (p : Parsed) (h : c.vars.lookup p.actor = none) :
    executeInVariable c p = .thr c .unexistentVariable := by
  unfold executeInVariable; rw [hc.find, h]

/-- An exception leaves the receiver as it was. -/
theorem receive_thr [StdSort] (cfg : Cfg) (i i' : Inst) (hw : WellTyped i) (name : Str) (args : List Str) (e : Exc)
    (h : receive cfg i name args = .thr i' e) :
    i' = i ∧ (e = .invalidMessage ∨ e = .wrongNumberOfArguments ∨ e = .invalidArgument) := by
  rcases receive_cases cfg i hw name args with ⟨_, h1⟩ | ⟨ks, _, ⟨_, h1⟩ | ⟨_, _, h1⟩ | ⟨_, _, h1⟩ | ⟨_, _, r, _, h1⟩⟩ <;>
    rw [h] at h1
  · cases h1; simp
  · cases h1; simp
  · cases h1; simp
  · cases h1
  · cases r <;> cases h1; simp

/-- A reply comes from a message with proper arguments. -/
theorem receive_ret [StdSort] (cfg : Cfg) (i i' : Inst) (hw : WellTyped i) (name : Str) (args : List Str) (r : Str)
    (h : receive cfg i name args = .ret i' r) : Behaves cfg i name args (.gives i' r) := by
  rcases receive_cases cfg i hw name args with ⟨_, h1⟩ | ⟨ks, _, ⟨_, h1⟩ | ⟨_, _, h1⟩ | ⟨_, _, h1⟩ | ⟨_, _, x, hx, h1⟩⟩ <;>
    rw [h] at h1
  · cases h1
  · cases h1
  · cases h1
  · cases h1
  · cases x <;> cases h1; exact hx

theorem receive_ub [StdSort] (cfg : Cfg) (i : Inst) (hw : WellTyped i) (name : Str) (args : List Str)
    (h : receive cfg i name args = .ub) :
    (∃ ks, (name, ks) ∈ signature i ∧ ∃ p ∈ ks.zip args, Overflows p.1 p.2) ∨ Behaves cfg i name args .undefined := by
  rcases receive_cases cfg i hw name args with ⟨_, h1⟩ | ⟨ks, hk, ⟨_, h1⟩ | ⟨_, _, h1⟩ | ⟨_, h2, h1⟩ | ⟨_, _, x, hx, h1⟩⟩ <;>
    rw [h] at h1
  · cases h1
  · cases h1
  · cases h1
  · exact .inl ⟨ks, hk, h2⟩
  · cases x <;> cases h1; exact .inr hx

theorem executeInVariable_some [StdSort] (c : Ctx) (hc : Inv c) (p : Parsed) (i : Inst) (h : c.vars.lookup p.actor = some i) :
    executeInVariable c p = match receive c.cfg i p.name p.args with
      | .ret i' r => .ret (setVar c p.actor i') r
      | .thr _ e => .thr c e
      | .ub => .ub := by
  unfold executeInVariable
  rw [hc.find, h]
  simp only []
  cases hr : receive c.cfg i p.name p.args with
  | ret i' r => rfl
  | ub => rfl
  | thr i' e =>
    simp only [(receive_thr c.cfg i i' (hc.wellTyped h) _ _ e hr).1]
    rw [updateVar_same _ _ _ h]

theorem Inv.setVar {c : Ctx} (hc : Inv c) (n : Str) (i j : Inst) (h : c.vars.lookup n = some j) (hi : WellTyped i) :
    Inv (Knuckle.setVar c n i) := by
  refine ⟨?_, ?_, hc.eps⟩
  · show Asc strLt ((updateVar n i c.vars).map (·.1)); rw [updateVar_names]; exact hc.asc
  · intro v hv
    rcases updateVar_mem n i c.vars v hv with hv | ⟨rfl, _⟩
    · exact hc.vars v hv
    · exact ⟨(hc.vars _ (lookup_some_mem h)).1, hi⟩

/-! ### Statements to types -/

theorem executeInType_cases (c : Ctx) (hc : Inv c) (p : Parsed) (h : IsType p.actor) :
    ((¬ ∃ ks, Creation p.actor p.name ks) ∧ executeInType c p = .thr c .invalidMessage) ∨
    (∃ ks, Creation p.actor p.name ks ∧ (
      (p.args.length ≠ ks.length ∧ executeInType c p = .thr c .wrongNumberOfArguments) ∨
      (p.args.length = ks.length ∧ (∃ q ∈ ks.zip p.args, ¬ Fits q.1 q.2) ∧ executeInType c p = .thr c .invalidArgument) ∨
      (p.args.length = ks.length ∧ (∃ q ∈ ks.zip p.args, Overflows q.1 q.2) ∧ executeInType c p = .ub) ∨
      (∃ n i, Creates p.actor p.name p.args n i ∧
        ((c.vars.lookup n = none ∧ executeInType c p = .ret { c with vars := mapInsert strLt n i c.vars } b!"null") ∨
         (∃ j, c.vars.lookup n = some j ∧ startsWith p.name b!"createIfNotExists:" = true ∧ executeInType c p = .ret c b!"null") ∨
         (∃ j, c.vars.lookup n = some j ∧ startsWith p.name b!"createIfNotExists:" = false ∧
            executeInType c p = .thr c .nameAlreadyUsed))))) := by
  rcases makeInstance_cases p.actor p.name p.args h with ⟨h1, h2⟩ | ⟨ks, hk, ⟨h1, h2⟩ | ⟨h1, h3, h2⟩ | ⟨h1, h3, h2⟩ | ⟨_, _, n, i, h1, h2⟩⟩
  · exact .inl ⟨h1, by unfold executeInType; rw [h2]; rfl⟩
  · exact .inr ⟨ks, hk, .inl ⟨h1, by unfold executeInType; rw [h2]; rfl⟩⟩
  · exact .inr ⟨ks, hk, .inr (.inl ⟨h1, h3, by unfold executeInType; rw [h2]; rfl⟩)⟩
  · exact .inr ⟨ks, hk, .inr (.inr (.inl ⟨h1, h3, by unfold executeInType; rw [h2]; rfl⟩))⟩
  · refine .inr ⟨ks, hk, .inr (.inr (.inr ⟨n, i, h1, ?_⟩))⟩
    unfold executeInType
    rw [h2]
    simp only [Res.bind_ok, hc.find]
    cases hl : c.vars.lookup n with
    | none => exact .inl ⟨rfl, rfl⟩
    | some j =>
      cases hs : startsWith p.name b!"createIfNotExists:" with
      | true => exact .inr (.inl ⟨j, rfl, rfl, rfl⟩)
      | false => exact .inr (.inr ⟨j, rfl, rfl, rfl⟩)

theorem Inv.insert {c : Ctx} (hc : Inv c) (n : Str) (i : Inst) (hn : Variable n) (hi : WellTyped i) :
    Inv { c with vars := mapInsert strLt n i c.vars } := by
  refine ⟨mapInsert_asc n i _ hc.asc, ?_, hc.eps⟩
  intro v hv
  have hs := lookup_of_mem (mapInsert_asc n i _ hc.asc) hv
  rw [mapInsert_lookup n i _ hc.asc] at hs
  by_cases e : v.1 = n
  · rw [if_pos e] at hs; cases hs; rw [e]; exact ⟨hn, hi⟩
  · rw [if_neg e] at hs; exact hc.vars v (lookup_some_mem hs)

/-! ### Statements to the context -/

/-- The messages the context understands. -/
def contextSig : List (Str × List ArgKind) := [
  (b!"listNamespaces", []), (b!"listVariables", []), (b!"listVariablesOfNamespace:", [.namespace]),
  (b!"deleteVariable:", [.name]), (b!"deleteVariablesOfNamespace:", [.namespace]), (b!"getFloatPrecision", []),
  (b!"setFloatPrecision:", [.lit b!"Integer"]), (b!"getFloatComparisonTolerance", []),
  (b!"setFloatComparisonTolerance:", [.lit b!"Float"])]

/-- What the context does with a message; `tol` and `prec` stand for settings. -/
inductive CtxDoes (c : Ctx) : Str → List Str → Run Ctx → Prop
  | listNamespaces : CtxDoes c b!"listNamespaces" [] (.ret c (listText c!"[" c!"]" (allNamespaces c.vars)))
  | listVariables : CtxDoes c b!"listVariables" [] (.ret c (listText c!"[" c!"]" (c.vars.map (·.1))))
  | listOf {n} : Identifier n → CtxDoes c b!"listVariablesOfNamespace:" [n]
      (.ret c (listText c!"[" c!"]" ((c.vars.filter fun v => startsWith v.1 (n ++ b!"::")).map (·.1))))
  | delete {n} : Variable n → n ∈ c.vars.map (·.1) →
      CtxDoes c b!"deleteVariable:" [n] (.ret { c with vars := c.vars.filter fun v => !(v.1 == n) } b!"null")
  | deleteNone {n} : Variable n → n ∉ c.vars.map (·.1) →
      CtxDoes c b!"deleteVariable:" [n] (.thr c .unexistentVariable)
  | deleteOf {n} : Identifier n → CtxDoes c b!"deleteVariablesOfNamespace:" [n]
      (.ret { c with vars := c.vars.filter fun v => !startsWith v.1 (n ++ b!"::") } b!"null")
  | getPrecision {args} : CtxDoes c b!"getFloatPrecision" args (.ret c (intStr c.cfg.prec))
  | setPrecision {a p} : Denotes b!"Integer" a (.integer p) → 0 < p → CtxDoes c b!"setFloatPrecision:" [a]
      (.ret { c with cfg := { c.cfg with prec := p } } b!"null")
  | setPrecisionNo {a p} : Denotes b!"Integer" a (.integer p) → ¬ 0 < p → CtxDoes c b!"setFloatPrecision:" [a]
      (.thr c .invalidArgument)
  | getTolerance {args} : CtxDoes c b!"getFloatComparisonTolerance" args (.ret c (fmtFixed c.cfg.prec c.cfg.eps))
  | setTolerance {a} : FloatValue a → (atof a).toF32.lt (.fin false 0) = false → CtxDoes c b!"setFloatComparisonTolerance:" [a]
      (.ret { c with cfg := { c.cfg with eps := (atof a).toF32 } } b!"null")
  | setToleranceNo {a} : FloatValue a → (atof a).toF32.lt (.fin false 0) = true →
      CtxDoes c b!"setFloatComparisonTolerance:" [a] (.thr c .invalidArgument)
  | noMessage {name args} : (∀ p ∈ contextSig, p.1 ≠ name) → CtxDoes c name args (.thr c .invalidMessage)
  | wrongNumber {name args ks} : (name, ks) ∈ contextSig → args.length ≠ ks.length →
      CtxDoes c name args (.thr c .wrongNumberOfArguments)
  | invalid {name args ks} : (name, ks) ∈ contextSig → args.length = ks.length → (∃ p ∈ ks.zip args, ¬ Fits p.1 p.2) →
      CtxDoes c name args (.thr c .invalidArgument)
  | undefined {a} : OutOfRange a → CtxDoes c b!"setFloatPrecision:" [a] .ub

theorem listOfNamespaceLoop_eq (pre : Str) (hpre : pre ≠ []) (l : List (Str × Inst)) : ∀ done : List Str, (∀ x ∈ done, x ≠ []) →
    listOfNamespaceLoop pre l (joinComma done) = joinComma (done ++ (l.filter fun v => startsWith v.1 pre).map (·.1)) := by
  have jn : ∀ (d : List Str) (x : Str), (∀ y ∈ d, y ≠ []) →
      ((if (joinComma d).length > 0 then joinComma d ++ [c!","] else joinComma d) ++ x) = joinComma (d ++ [x]) := by
    intro d x hd
    induction d with
    | nil => simp [joinComma]
    | cons y ys ih =>
      have hy : 0 < y.length := List.length_pos_of_ne_nil (hd y (by simp))
      cases ys with
      | nil =>
        rw [if_pos (show (joinComma [y]).length > 0 from hy)]
        simp [joinComma]
      | cons z zs =>
        have hz : 0 < (joinComma (z :: zs)).length := by
          have := List.length_pos_of_ne_nil (hd z (by simp))
          cases zs with
          | nil => simpa [joinComma] using this
          | cons _ _ => simp only [joinComma, List.length_append, List.length_cons]; omega
        have ih := ih fun w hw => hd w (by simp at hw ⊢; tauto)
        rw [if_pos hz] at ih
        rw [if_pos (by simp only [joinComma, List.length_append, List.length_cons]; omega)]
        simp only [List.cons_append, joinComma] at ih ⊢
        rw [← ih]; simp
  induction l with
  | nil => intro d hd; simp [listOfNamespaceLoop]
  | cons v vs ih =>
    intro d hd
    simp only [listOfNamespaceLoop]
    cases hs : startsWith v.1 pre with
    | false =>
      simp only [Bool.not_false, if_true]
      rw [ih d hd, List.filter_cons, hs]; simp
    | true =>
      simp only [Bool.not_true, Bool.false_eq_true, if_false]
      have hv : v.1 ≠ [] := by
        obtain ⟨r, hr⟩ := (startsWith_iff _ _).1 hs
        rw [hr]; simp [hpre]
      rw [jn d v.1 hd, ih (d ++ [v.1])]
      · rw [List.filter_cons, hs]; simp
      · intro x hx
        rcases List.mem_append.1 hx with hx | hx
        · exact hd x hx
        · rw [List.mem_singleton.1 hx]; exact hv

theorem listText_join (l r : Byte) (xs : List Str) : l :: (joinComma xs ++ [r]) = listText l r xs := by
  unfold listText; rw [joinComma_eq]; rfl

theorem dispatch_names {σ : Type} (old : σ) (tb : Table σ) (name : Str) (args : List Str)
    (h : ∀ r ∈ tb, r.1 ≠ name) : dispatch old tb name args = .thr old .invalidMessage := by
  induction tb with
  | nil => rfl
  | cons x xs ih =>
    obtain ⟨n, op⟩ := x
    simp only [dispatch]
    have : (name == n) = false := beq_false_of_ne (Ne.symm (h (n, op) (by simp)))
    rw [this]
    exact ih fun r hr => h r (by simp [hr])

theorem context_does (c : Ctx) (hc : Inv c) (name : Str) (args : List Str) :
    CtxDoes c name args (dispatch c (contextTable c) name args) := by
  have isName : ∀ a, isVariable a = true ∨ (isVariable a = false ∧ ¬ Variable a) := by
    intro a
    cases h : isVariable a with
    | true => exact .inl rfl
    | false => exact .inr ⟨rfl, fun e => by rw [(isVariable_iff a).2 e] at h; cases h⟩
  have isNs : ∀ a, isNamespace a = true ∧ Identifier a ∨ (isNamespace a = false ∧ ¬ Identifier a) := by
    intro a
    show isIdentifier a = true ∧ _ ∨ (isIdentifier a = false ∧ _)
    cases h : isIdentifier a with
    | true => exact .inl ⟨rfl, (isIdentifier_iff a).1 h⟩
    | false => exact .inr ⟨rfl, fun e => by rw [(isIdentifier_iff a).2 e] at h; cases h⟩
  by_cases h : name ∈ contextSig.map (·.1)
  · simp only [contextSig, List.map_cons, List.map_nil, List.mem_cons, List.not_mem_nil, or_false] at h
    rcases h with rfl | rfl | rfl | rfl | rfl | rfl | rfl | rfl | rfl
    · show CtxDoes c _ args (opListNamespaces c args)
      cases args with
      | nil => unfold opListNamespaces op0 Res.run; rw [listText_join]; exact .listNamespaces
      | cons a as => exact .wrongNumber (ks := []) (by simp [contextSig]) (by simp)
    · show CtxDoes c _ args (opListVariables c args)
      cases args with
      | nil => unfold opListVariables op0 Res.run; rw [listText_join]; exact .listVariables
      | cons a as => exact .wrongNumber (ks := []) (by simp [contextSig]) (by simp)
    · show CtxDoes c _ args (opListVariablesOfNamespace c args)
      match args with
      | [] => exact .wrongNumber (ks := [.namespace]) (by simp [contextSig]) (by simp)
      | _ :: _ :: _ => exact .wrongNumber (ks := [.namespace]) (by simp [contextSig]) (by simp)
      | [a] =>
        unfold opListVariablesOfNamespace op1
        rcases isNs a with ⟨h1, h2⟩ | ⟨h1, h2⟩ <;> simp only [h1, Bool.not_true, Bool.not_false, if_true, Bool.false_eq_true, if_false, Res.run]
        · have e := listOfNamespaceLoop_eq (a ++ b!"::") (by simp) c.vars [] (by simp)
          rw [show joinComma [] = [] from rfl, List.nil_append] at e
          rw [e, listText_join]
          exact .listOf h2
        · exact .invalid (ks := [.namespace]) (by simp [contextSig]) rfl ⟨(.namespace, a), by simp, h2⟩
    · show CtxDoes c _ args (opDeleteVariable c args)
      match args with
      | [] => exact .wrongNumber (ks := [.name]) (by simp [contextSig]) (by simp)
      | _ :: _ :: _ => exact .wrongNumber (ks := [.name]) (by simp [contextSig]) (by simp)
      | [a] =>
        unfold opDeleteVariable op1
        rcases isName a with h1 | ⟨h1, h2⟩ <;> simp only [h1, Bool.not_true, Bool.not_false, if_true, Bool.false_eq_true, if_false]
        · have hv := (isVariable_iff a).1 h1
          rw [eraseName_eq a _ hc.asc]
          by_cases hm : a ∈ c.vars.map (·.1)
          · rw [if_pos hm]; exact .delete hv hm
          · rw [if_neg hm]; exact .deleteNone hv hm
        · exact .invalid (ks := [.name]) (by simp [contextSig]) rfl ⟨(.name, a), by simp, h2⟩
    · show CtxDoes c _ args (opDeleteVariablesOfNamespace c args)
      match args with
      | [] => exact .wrongNumber (ks := [.namespace]) (by simp [contextSig]) (by simp)
      | _ :: _ :: _ => exact .wrongNumber (ks := [.namespace]) (by simp [contextSig]) (by simp)
      | [a] =>
        unfold opDeleteVariablesOfNamespace op1
        rcases isNs a with ⟨h1, h2⟩ | ⟨h1, h2⟩ <;> simp only [h1, Bool.not_true, Bool.not_false, if_true, Bool.false_eq_true, if_false]
        · exact .deleteOf h2
        · exact .invalid (ks := [.namespace]) (by simp [contextSig]) rfl ⟨(.namespace, a), by simp, h2⟩
    · exact .getPrecision
    · show CtxDoes c _ args (opSetFloatPrecision c args)
      match args with
      | [] => exact .wrongNumber (ks := [.lit b!"Integer"]) (by simp [contextSig]) (by simp)
      | _ :: _ :: _ => exact .wrongNumber (ks := [.lit b!"Integer"]) (by simp [contextSig]) (by simp)
      | [a] =>
        simp only [opSetFloatPrecision, op1]
        rcases integerLit_cases a with ⟨v, h1, hd, hr⟩ | ⟨h1, hn⟩ | ⟨h1, hn⟩ <;> rw [h1]
        · simp only [Res.bind_ok]
          by_cases hp : v ≤ 0
          · rw [if_pos hp]; exact .setPrecisionNo hd (by omega)
          · rw [if_neg hp]; exact .setPrecision hd (by omega)
        · exact .invalid (ks := [.lit b!"Integer"]) (by simp [contextSig]) rfl ⟨(.lit b!"Integer", a), by simp, hn⟩
        · exact .undefined hn
    · exact .getTolerance
    · show CtxDoes c _ args (opSetFloatComparisonTolerance c args)
      match args with
      | [] => exact .wrongNumber (ks := [.lit b!"Float"]) (by simp [contextSig]) (by simp)
      | _ :: _ :: _ => exact .wrongNumber (ks := [.lit b!"Float"]) (by simp [contextSig]) (by simp)
      | [a] =>
        simp only [opSetFloatComparisonTolerance, op1]
        rcases floatLit_cases a with ⟨h1, hd⟩ | ⟨h1, hn⟩ <;> rw [h1]
        · simp only [Res.bind_ok]
          cases hp : (atof a).toF32.lt (.fin false 0) with
          | true => exact .setToleranceNo hd hp
          | false => exact .setTolerance hd hp
        · exact .invalid (ks := [.lit b!"Float"]) (by simp [contextSig]) rfl ⟨(.lit b!"Float", a), by simp, fun e => hn ((literalOf_float a).1 e)⟩
  · have h' : ∀ p ∈ contextSig, p.1 ≠ name := fun p hp e => h (List.mem_map.2 ⟨p, hp, e⟩)
    rw [dispatch_names]
    · exact .noMessage h'
    · intro r hr
      simp only [contextSig, List.map_cons, List.map_nil, List.mem_cons, List.not_mem_nil, or_false, not_or] at h
      simp only [contextTable, List.mem_cons, List.not_mem_nil, or_false] at hr
      obtain ⟨h1, h2, h3, h4, h5, h6, h7, h8, h9⟩ := h
      rcases hr with rfl | rfl | rfl | rfl | rfl | rfl | rfl | rfl | rfl <;> exact Ne.symm (by assumption)

/-! ### Preservation -/

theorem Inv.ctxDoes {c c' : Ctx} (hc : Inv c) {name : Str} {args : List Str} {r : Run Ctx} (h : CtxDoes c name args r)
    (hr : (∃ o, r = .ret c' o) ∨ ∃ e, r = .thr c' e) : Inv c' := by
  have key : ∀ {x : Ctx} {r : Run Ctx}, Inv x → ((∃ o, r = .ret x o) ∨ ∃ e, r = .thr x e) →
      ((∃ o, r = .ret c' o) ∨ ∃ e, r = .thr c' e) → Inv c' := by
    intro x r hx h1 h2
    rcases h1 with ⟨o, rfl⟩ | ⟨e, rfl⟩ <;> rcases h2 with ⟨o, h⟩ | ⟨e, h⟩ <;> cases h <;> exact hx
  cases h with
  | undefined h => rcases hr with ⟨o, h⟩ | ⟨e, h⟩ <;> cases h
  | delete h1 h2 => exact key (hc.filter fun n => !(n == _)) (.inl ⟨_, rfl⟩) hr
  | deleteOf h1 => exact key (hc.filter fun n => !startsWith n _) (.inl ⟨_, rfl⟩) hr
  | @setPrecision a p h1 h2 => exact key (x := { c with cfg := { c.cfg with prec := p } }) ⟨hc.asc, hc.vars, hc.eps⟩ (.inl ⟨_, rfl⟩) hr
  | @setTolerance a h1 h2 =>
    exact key (x := { c with cfg := { c.cfg with eps := (atof a).toF32 } }) ⟨hc.asc, hc.vars, isF32_toF32' _⟩ (.inl ⟨_, rfl⟩) hr
  | _ => first | exact key hc (.inl ⟨_, rfl⟩) hr | exact key hc (.inr ⟨_, rfl⟩) hr

theorem finish_onCtx_done {text : Str} {s s' : Option Session} {r : Run Ctx} {c' : Ctx} {o : Str}
    (h : finish text (onCtx s r) = .done (c', s', o)) :
    s' = s ∧ ∃ x, c' = x.record text o ∧ (r = .ret x o ∨ ∃ e, r = .thr x e ∧ o = e.text) := by
  cases r with
  | ret x y => cases h; exact ⟨rfl, x, rfl, .inl rfl⟩
  | thr x e => cases h; exact ⟨rfl, x, rfl, .inr ⟨e, rfl, rfl⟩⟩
  | ub => cases h

theorem session_not_ub (pwd : Str) (s : Session) (name : Str) (args : List Str) : s.receive pwd name args ≠ .ub := by
  unfold Session.receive
  split
  · simp
  · split
    · match args with
      | [] => simp [op1]
      | _ :: _ :: _ => simp [op1]
      | [a] =>
        simp only [op1]
        rcases stringLit_cases a with ⟨v, h1, _⟩ | ⟨h1, h2⟩ <;> rw [h1]
        · cases isStringValue a <;> simp [Res.run]
          split <;> rename_i h <;> split at h <;> simp_all
        · cases isStringValue a <;> simp [Res.run]
    · simp

theorem exec_inv [StdSort] {pwd : Str} {c c' : Ctx} {s s' : Option Session} {text r : Str} (hc : Inv c)
    (h : execute pwd c s text = .done (c', s', r)) : Inv c' := by
  rcases execute_cases pwd c s text with e | ⟨p, _, ht, e⟩ | ⟨p, _, ht, e⟩ | ⟨p, _, ht, e⟩ | ⟨p, _, ht, e⟩ <;> rw [e] at h
  · cases h; exact hc.record _ _
  · obtain ⟨_, x, rfl, hx⟩ := finish_onCtx_done h
    refine Inv.record ?_ _ _
    rcases executeInType_cases c hc p ((isType_iff _).1 ht) with
      ⟨_, h2⟩ | ⟨ks, _, ⟨_, h2⟩ | ⟨_, _, h2⟩ | ⟨_, _, h2⟩ | ⟨n, i, hcr, ⟨hl, h2⟩ | ⟨j, _, _, h2⟩ | ⟨j, _, _, h2⟩⟩⟩ <;>
      rw [h2] at hx <;> rcases hx with hx | ⟨e, hx, _⟩ <;> cases hx <;>
      first | exact hc | exact hc.insert n i (creates_variable hcr) (creates_wellTyped hcr)
  · obtain ⟨_, x, rfl, hx⟩ := finish_onCtx_done h
    refine Inv.record (hc.ctxDoes (context_does c hc p.name p.args) ?_) _ _
    rcases hx with hx | ⟨e, hx, _⟩
    · exact .inl ⟨_, hx⟩
    · exact .inr ⟨_, hx⟩
  · obtain ⟨_, x, rfl, hx⟩ := finish_onCtx_done h
    refine Inv.record ?_ _ _
    cases hl : c.vars.lookup p.actor with
    | none =>
      rw [executeInVariable_none c hc p hl] at hx
      rcases hx with hx | ⟨e, hx, _⟩ <;> cases hx; exact hc
    | some i =>
      rw [executeInVariable_some c hc p i hl] at hx
      cases hr : receive c.cfg i p.name p.args with
      | ret i' o =>
        rw [hr] at hx
        rcases hx with hx | ⟨e, hx, _⟩ <;> cases hx
        exact hc.setVar _ _ i hl (behaves_wellTyped _ _ _ (hc.wellTyped hl) _ _ _ (receive_ret _ _ _ (hc.wellTyped hl) _ _ _ hr))
      | thr i' e =>
        rw [hr] at hx
        rcases hx with hx | ⟨e, hx, _⟩ <;> cases hx; exact hc
      | ub =>
        rw [hr] at hx
        rcases hx with hx | ⟨e, hx, _⟩ <;> cases hx
  · rw [executeParsed_connection _ _ _ _ ht] at h
    cases s with
    | none => cases h
    | some s =>
      simp only [] at h
      cases hr : s.receive pwd p.name p.args with
      | ret y o => rw [hr] at h; cases h; exact hc.record _ _
      | thr y o => rw [hr] at h; cases h; exact hc.record _ _
      | ub => rw [hr] at h; cases h

theorem reachable_inv [StdSort] {c : Ctx} (h : Reachable c) : Inv c := by
  induction h with
  | init prec eps fo q he => exact ⟨List.Pairwise.nil, by simp [Ctx.init], he⟩
  | step _ h ih => exact exec_inv ih h

end Knuckle

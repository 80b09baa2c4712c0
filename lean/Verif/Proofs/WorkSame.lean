/-
C94: the counted execution has the results of the plain model.
-/
import Verif.Model.Work
import Verif.Proofs.Cost

namespace Knuckle.Work

variable {α β σ : Type}

@[simp] theorem pure_res (a : α) : (pure a : Work α).res = .ok a := rfl
@[simp] theorem pure_steps (a : α) : (pure a : Work α).steps = 0 := rfl
@[simp] theorem free_res (x : Res α) : (free x).res = x := rfl
@[simp] theorem free_steps (x : Res α) : (free x).steps = 0 := rfl
@[simp] theorem spend_res (n : Nat) : (spend n).res = .ok () := rfl
@[simp] theorem spend_steps (n : Nat) : (spend n).steps = n := rfl
@[simp] theorem literal_res (t a : Str) : (literal t a).res = getSharedInstance t a := rfl
@[simp] theorem index_res (a : Str) : (index a).res = integerLit a := rfl
@[simp] theorem answer_res (s : σ) (r : Str) : (answer s r).res = .ok (s, r) := rfl
@[simp] theorem answer_steps (s : σ) (r : Str) : (answer s r).steps = r.length + 1 := rfl

@[simp] theorem bind_res (x : Work α) (f : α → Work β) : (x >>= f).res = (x.res >>= fun a => (f a).res) := by
  show (Work.bind x f).res = _
  unfold Work.bind
  cases x.res <;> rfl

theorem bind_steps (x : Work α) (f : α → Work β) {A B : Nat} (hx : x.steps ≤ A) (hf : ∀ a, x.res = .ok a → (f a).steps ≤ B) :
    (x >>= f).steps ≤ A + B := by
  show (Work.bind x f).steps ≤ _
  unfold Work.bind
  cases h : x.res with
  | ok a => exact Nat.add_le_add hx (hf a h)
  | err e => exact Nat.le_add_right_of_le hx
  | ub => exact Nat.le_add_right_of_le hx

@[simp] theorem ite_res (p : Prop) [Decidable p] (x y : Work α) : (if p then x else y).res = if p then x.res else y.res := by
  split <;> rfl

/-! ### The results are those of the plain model -/

theorem findFrom_res (eps : Fl) (o : Obj) (l : List Obj) : ∀ i, (findFrom eps o l i).res = Knuckle.findFrom eps o l i := by
  induction l with
  | nil => intro i; rfl
  | cons x xs ih => intro i; simp [findFrom, Knuckle.findFrom, ih]

theorem countLoop_res (eps : Fl) (o : Obj) (l : List Obj) : ∀ i, (countLoop eps o l i).res = Knuckle.countLoop eps o l i := by
  induction l with
  | nil => intro i; rfl
  | cons x xs ih => intro i; simp [countLoop, Knuckle.countLoop, ih]

theorem indexesLoop_res (eps : Fl) (o : Obj) (l : List Obj) :
    ∀ i acc, (indexesLoop eps o l i acc).res = Knuckle.indexesLoop eps o l i acc := by
  induction l with
  | nil => intro i acc; rfl
  | cons x xs ih => intro i acc; simp [indexesLoop, Knuckle.indexesLoop, ih]

theorem removeFirstLoop_res (eps : Fl) (o : Obj) (l : List Obj) :
    ∀ pre, (removeFirstLoop eps o pre l).res = Knuckle.removeFirstLoop eps o pre l := by
  induction l with
  | nil => intro pre; rfl
  | cons x xs ih => intro pre; simp [removeFirstLoop, Knuckle.removeFirstLoop, ih]

theorem replaceFirstLoop_res (eps : Fl) (et b : Str) (o : Obj) (l : List Obj) :
    ∀ pre, (replaceFirstLoop eps et b o pre l).res = Knuckle.replaceFirstLoop eps et b o pre l := by
  induction l with
  | nil => intro pre; rfl
  | cons x xs ih => intro pre; simp [replaceFirstLoop, Knuckle.replaceFirstLoop, ih]

theorem removeAllLoop_fst (eps : Fl) (o : Obj) (l : List Obj) :
    ∀ pre, (removeAllLoop eps o pre l).1 = Knuckle.removeAllLoop eps o pre l := by
  induction l with
  | nil => intro pre; rfl
  | cons x xs ih =>
    intro pre; simp only [removeAllLoop, Knuckle.removeAllLoop]
    rcases equalTo eps x o with (_ | _) | _ | _ <;> simp [ih]

theorem replaceAllLoop_fst (eps : Fl) (et b : Str) (o : Obj) (l : List Obj) :
    ∀ pre, (replaceAllLoop eps et b o pre l).1 = Knuckle.replaceAllLoop eps et b o pre l := by
  induction l with
  | nil => intro pre; rfl
  | cons x xs ih =>
    intro pre; simp only [replaceAllLoop, Knuckle.replaceAllLoop]
    rcases equalTo eps x o with (_ | _) | _ | _ <;> simp only [ih]
    rcases getSharedInstance et b with _ | _ | _ <;> simp [ih]

/-- The table without the counts. -/
def plain (t : Table σ) : Knuckle.Table σ := t.map fun r => (r.1, fun args => (r.2 args).1)

theorem dispatch_fst (old : σ) (t : Table σ) (name : Str) (args : List Str) :
    (dispatch old t name args).1 = Knuckle.dispatch old (plain t) name args := by
  induction t with
  | nil => rfl
  | cons r t ih =>
    obtain ⟨n, op⟩ := r
    simp only [dispatch, plain, List.map_cons, Knuckle.dispatch]
    split
    · rfl
    · exact ih

theorem op0_fst (old : σ) (f : Work (σ × Str)) (args : List Str) : (op0 old f args).1 = Knuckle.op0 old f.res args := by
  cases args <;> rfl

theorem op1_fst (old : σ) (f : Str → Work (σ × Str)) (args : List Str) :
    (op1 old f args).1 = Knuckle.op1 old (fun a => (f a).res) args := by
  rcases args with _ | ⟨a, _ | _⟩ <;> rfl

theorem op2_fst (old : σ) (f : Str → Str → Work (σ × Str)) (args : List Str) :
    (op2 old f args).1 = Knuckle.op2 old (fun a b => (f a b).res) args := by
  rcases args with _ | ⟨a, _ | ⟨b, _ | _⟩⟩ <;> rfl

theorem op3_fst (old : σ) (f : Str → Str → Str → Work (σ × Str)) (args : List Str) :
    (op3 old f args).1 = Knuckle.op3 old (fun a b c => (f a b c).res) args := by
  rcases args with _ | ⟨a, _ | ⟨b, _ | ⟨c, _ | _⟩⟩⟩ <;> rfl

theorem answerVector_res (cfg : Cfg) (s : σ) (l : List Obj) : (answerVector cfg s l).res = .ok (s, vectorRepr cfg.prec l) := by
  simp [answerVector]

theorem match_res {α β : Type} (o : Option α) (f : α → Work β) (g : Work β) :
    (match o with | some a => f a | none => g).res = match o with | some a => (f a).res | none => g.res := by
  cases o <;> rfl

theorem vectorTable_plain [StdSort] [Library] (cfg : Cfg) (et : Str) (l : List Obj) :
    plain (vectorTable cfg et l) = Knuckle.vectorTable cfg et l := by
  simp only [vectorTable, Knuckle.vectorTable, plain, List.map_cons, List.map_nil]
  congr 1
  · simp only [op0_fst, answerVector_res]
  congr 1
  · simp only [op0_fst, answer_res]
  congr 1
  · simp [vecContains, Knuckle.vecContains, op1_fst, findFrom_res]
  congr 1
  · simp [vecContainsFrom, Knuckle.vecContainsFrom, op2_fst, findFrom_res]
  congr 1
  · simp [vecCount, Knuckle.vecCount, op1_fst, countLoop_res]
  congr 1
  · simp only [vecAtIndex, Knuckle.vecAtIndex, op1_fst, bind_res, index_res, free_res]
    congr 2; funext args; congr; funext a; congr; funext i; congr; funext u
    cases l[i.toNat]? <;> rfl
  congr 1
  · simp [vecFirstIndexOf, Knuckle.vecFirstIndexOf, op1_fst, findFrom_res]
  congr 1
  · simp [vecFirstIndexOfFrom, Knuckle.vecFirstIndexOfFrom, op2_fst, findFrom_res]
  congr 1
  · simp [vecAllIndexesOf, Knuckle.vecAllIndexesOf, op1_fst, indexesLoop_res]
  congr 1
  · simp only [op0_fst, answer_res]
  congr 1
  · simp [vecFirst, Knuckle.vecFirst, op1_fst, answerVector_res]
  congr 1
  · simp [vecLast, Knuckle.vecLast, op1_fst, answerVector_res]
  congr 1
  · simp [vecSlice, Knuckle.vecSlice, op1_fst, answerVector_res]
  congr 1
  · simp [vecSliceTo, Knuckle.vecSliceTo, op2_fst, answerVector_res]
  congr 1
  · simp [vecPushBack, Knuckle.vecPushBack, op1_fst]
  congr 1
  · simp [vecPushFront, Knuckle.vecPushFront, op1_fst]
  congr 1
  · simp only [vecPopBack, Knuckle.vecPopBack, op0_fst, ite_res, answer_res]
    cases l[l.length - 1]? <;> simp
  congr 1
  · simp only [vecPopFront, Knuckle.vecPopFront, op0_fst, ite_res, answer_res]
    cases l[0]? <;> simp
  congr 1
  · simp only [vecPopAtIndex, Knuckle.vecPopAtIndex, op1_fst, bind_res, index_res, free_res]
    congr 2; funext args; congr; funext a; congr; funext i; congr; funext u
    cases l[i.toNat]? <;> simp
  congr 1
  · simp [vecInsert, Knuckle.vecInsert, op2_fst]
  congr 1
  · simp [vecErase, Knuckle.vecErase, op1_fst]
  congr 1
  · simp [vecEraseTo, Knuckle.vecEraseTo, op2_fst]
  congr 1
  · simp [vecRemoveFirst, Knuckle.vecRemoveFirst, op1_fst, removeFirstLoop_res]
  congr 1
  · simp [vecRemoveFirstFrom, Knuckle.vecRemoveFirstFrom, op2_fst, removeFirstLoop_res]
  congr 1
  · congr 1; funext args
    rcases args with _ | ⟨a, _ | _⟩ <;> simp only [vecRemoveAll, Knuckle.vecRemoveAll]
    cases getSharedInstance et a <;> simp [removeAllLoop_fst]
  congr 1
  · simp [vecReplaceFirst, Knuckle.vecReplaceFirst, op2_fst, replaceFirstLoop_res]
  congr 1
  · simp [vecReplaceFirstFrom, Knuckle.vecReplaceFirstFrom, op3_fst, replaceFirstLoop_res]
  congr 1
  · congr 1; funext args
    rcases args with _ | ⟨a, _ | ⟨b, _ | _⟩⟩ <;> simp only [vecReplaceAll, Knuckle.vecReplaceAll]
    cases (do let o ← getSharedInstance et a; let _ ← getSharedInstance et b; .ok o : Res Obj) <;> simp [replaceAllLoop_fst]
  congr 1
  · simp [vecSort, Knuckle.vecSort, op0_fst]
  congr 1
  · simp [op0_fst]
  congr 1
  · simp [op0_fst]

theorem setTable_plain [Library] (cfg : Cfg) (et : Str) (l : List Obj) :
    plain (setTable cfg et l) = Knuckle.setTable cfg et l := by
  simp only [setTable, Knuckle.setTable, plain, List.map_cons, List.map_nil]
  simp [op0_fst, op1_fst]

theorem dictTable_plain [Library] (cfg : Cfg) (kt vt : Str) (l : List (Obj × Obj)) :
    plain (dictTable cfg kt vt l) = Knuckle.dictTable cfg kt vt l := by
  simp only [dictTable, Knuckle.dictTable, plain, List.map_cons, List.map_nil]
  have hg : (fun args => (dictGet cfg kt l args).1) = Knuckle.dictGet cfg kt l := by
    funext args
    simp only [dictGet, Knuckle.dictGet, op1_fst, bind_res, literal_res, free_res, spend_res, Res.bind_ok]
    congr; funext a; congr; funext k; congr; funext u
    cases mapFind (ltB cfg.eps) k l <;> rfl
  have ha : (fun args => (dictAssociate cfg kt vt l args).1) = Knuckle.dictAssociate cfg kt vt l := by
    funext args
    simp [dictAssociate, Knuckle.dictAssociate, op2_fst]
  rw [hg, ha]
  simp [op0_fst, op1_fst, answerVector_res]

theorem receive_fst [StdSort] [Library] (cfg : Cfg) (i : Inst) (name : Str) (args : List Str) :
    (receive cfg i name args).1 = Knuckle.receive cfg i name args := by
  cases i with
  | vector et l => simp only [receive, Knuckle.receive, wrap, dispatch_fst, vectorTable_plain]
  | set et l => simp only [receive, Knuckle.receive, wrap, dispatch_fst, setTable_plain]
  | dictionary kt vt l => simp only [receive, Knuckle.receive, wrap, dispatch_fst, dictTable_plain]
  | _ => rfl

theorem insertAll_fst [Library] (ns : List Str) : ∀ x, (insertAll ns x).1 = ns.foldl (fun acc n => setInsert strLt n acc) x.1 := by
  induction ns with
  | nil => intro x; rfl
  | cons n ns ih => intro x; simp [insertAll, ih]

theorem allNamespaces_from [Library] (vars : List (Str × Inst)) : ∀ x : Counted (List Str),
    (vars.foldl (fun x v => insertAll (namespacesOf [] v.1) (x.1, x.2 + v.1.length + 1)) x).1 =
      vars.foldl (fun acc v => (namespacesOf [] v.1).foldl (fun acc n => setInsert strLt n acc) acc) x.1 := by
  induction vars with
  | nil => intro x; rfl
  | cons v vs ih => intro x; simp only [List.foldl_cons, ih, insertAll_fst]

theorem allNamespaces_fst [Library] (vars : List (Str × Inst)) : (allNamespaces vars).1 = Knuckle.allNamespaces vars :=
  allNamespaces_from vars ([], 0)

theorem contextTable_plain [Library] (c : Ctx) : plain (contextTable c) = Knuckle.contextTable c := by
  have hd : (fun args => (opDeleteVariable c args).1) = Knuckle.opDeleteVariable c := by
    funext args
    simp only [opDeleteVariable, Knuckle.opDeleteVariable, op1_fst, bind_res, spend_res, Res.bind_ok, ite_res, free_res]
    congr; funext a
    cases eraseName a c.vars <;> simp
  simp only [contextTable, Knuckle.contextTable, plain, List.map_cons, List.map_nil]
  rw [hd]
  simp [opListNamespaces, Knuckle.opListNamespaces, opListVariables, Knuckle.opListVariables, opListVariablesOfNamespace,
    Knuckle.opListVariablesOfNamespace, opDeleteVariablesOfNamespace, Knuckle.opDeleteVariablesOfNamespace, setting,
    op0_fst, op1_fst, allNamespaces_fst]

theorem executeInType_fst [Library] (c : Ctx) (p : Parsed) : (executeInType c p).1 = Knuckle.executeInType c p := by
  simp only [executeInType, Knuckle.executeInType]
  cases makeInstance p.actor p.name p.args with
  | ok o =>
    cases o with
    | none => rfl
    | some m =>
      obtain ⟨n, i⟩ := m
      simp only [Res.bind_ok]
      cases mapFind strLt n c.vars with
      | none => rfl
      | some _ =>
        by_cases h : startsWith p.name b!"createIfNotExists:" = true <;> simp [h] <;> rfl
  | err e => rfl
  | ub => rfl

theorem executeInVariable_fst [StdSort] [Library] (c : Ctx) (p : Parsed) :
    (executeInVariable c p).1 = Knuckle.executeInVariable c p := by
  simp only [executeInVariable, Knuckle.executeInVariable]
  cases mapFind strLt p.actor c.vars with
  | none => rfl
  | some i => simp only [receive_fst]; rfl

theorem executeParsed_fst [StdSort] [Library] (pwd : Str) (c : Ctx) (s : Option Session) (p : Parsed) :
    (executeParsed pwd c s p).1 = Knuckle.executeParsed pwd c s p := by
  by_cases h1 : isType p.actor = true
  · simp only [executeParsed, Knuckle.executeParsed, h1, if_true, ← executeInType_fst]
    rcases executeInType c p with ⟨_ | _ | _, w⟩ <;> rfl
  by_cases h2 : isContext p.actor = true
  · simp only [executeParsed, Knuckle.executeParsed, h1, h2, if_true, ← contextTable_plain, ← dispatch_fst]
    rcases dispatch c (contextTable c) p.name p.args with ⟨_ | _ | _, w⟩ <;> rfl
  by_cases h3 : isVariable p.actor = true
  · simp only [executeParsed, Knuckle.executeParsed, h1, h2, h3, if_true, ← executeInVariable_fst]
    rcases executeInVariable c p with ⟨_ | _ | _, w⟩ <;> rfl
  · simp only [executeParsed, h1, h2, h3]; rfl

theorem execute_fst [StdSort] [Library] (pwd : Str) (c : Ctx) (s : Option Session) (input : Str) :
    (execute pwd c s input).1 = Knuckle.execute pwd c s input := by
  simp only [execute, Knuckle.execute, parseC_fst]
  cases parse input with
  | ub => rfl
  | err e => rfl
  | ok p =>
    simp only [← executeParsed_fst]
    rcases executeParsed pwd c s p with ⟨_ | _ | _, w⟩ <;> rfl

end Knuckle.Work

/-
Executing a request depends on the context only through its variables and settings, not on the logs.
-/
import Verif.Proofs.Execute
import Verif.Spec.Effect
import Mathlib.Data.List.Basic
import Mathlib.Data.List.Forall2

namespace Knuckle

open Spec

/-- The same context with other logs. -/
abbrev Ctx.relog (d : Ctx) (c : Ctx) : Ctx := { c with fileOpen := d.fileOpen, quiet := d.quiet, fileLog := d.fileLog, stdoutLog := d.stdoutLog }

theorem relog_of_sameData {c d : Ctx} (h : SameData c d) : d = d.relog c := by
  obtain ⟨h1, h2⟩ := h
  cases c; cases d; simp_all [Ctx.relog]

def Run.mapS {σ τ : Type} (f : σ → τ) : Run σ → Run τ
  | .ret a r => .ret (f a) r
  | .thr a e => .thr (f a) e
  | .ub => .ub

def Res.mapS {σ τ : Type} (f : σ → τ) : Res (σ × Str) → Res (τ × Str)
  | .ok (a, r) => .ok (f a, r)
  | .err e => .err e
  | .ub => .ub

theorem run_mapS {σ τ : Type} (f : σ → τ) (x : Res (σ × Str)) (y : Res (τ × Str)) (old : σ)
    (h : y = x.mapS f) : y.run (f old) = (x.run old).mapS f := by
  subst h
  rcases x with ⟨a, r⟩ | _ | _ <;> rfl

theorem dispatch_mapS {σ τ : Type} (f : σ → τ) (old : σ) (t : Table σ) (t' : Table τ) (name : Str) (args : List Str)
    (h : List.Forall₂ (fun p q => q.1 = p.1 ∧ ∀ a, q.2 a = (p.2 a).mapS f) t t') :
    dispatch (f old) t' name args = (dispatch old t name args).mapS f := by
  induction h with
  | nil => rfl
  | @cons p q t t' hp _ ih =>
    obtain ⟨n, op⟩ := p
    obtain ⟨n', op'⟩ := q
    obtain ⟨e, h⟩ := hp
    simp only at e h
    subst e
    simp only [dispatch]
    split
    · exact h args
    · exact ih

theorem executeInType_relog (d c : Ctx) (p : Parsed) : executeInType (d.relog c) p = (executeInType c p).mapS d.relog := by
  unfold executeInType
  refine run_mapS d.relog _ _ c ?_
  cases makeInstance p.actor p.name p.args with
  | ub => rfl
  | err e => rfl
  | ok o =>
    cases o with
    | none => rfl
    | some x =>
      obtain ⟨n, i⟩ := x
      simp only [Res.bind_ok]
      cases mapFind strLt n c.vars with
      | none => rfl
      | some j => simp only []; split <;> rfl

theorem executeInVariable_relog [StdSort] (d c : Ctx) (p : Parsed) : executeInVariable (d.relog c) p = (executeInVariable c p).mapS d.relog := by
  unfold executeInVariable
  simp only []
  cases mapFind strLt p.actor c.vars with
  | none => rfl
  | some i => simp only []; cases receive c.cfg i p.name p.args <;> rfl

theorem contextTable_relog (d c : Ctx) : List.Forall₂ (fun p q => q.1 = p.1 ∧ ∀ a, q.2 a = (p.2 a).mapS d.relog) (contextTable c) (contextTable (d.relog c)) := by
  have o1 : ∀ (f g : Str → Res (Ctx × Str)), (∀ a, g a = (f a).mapS d.relog) → ∀ args, op1 (d.relog c) g args = (op1 c f args).mapS d.relog := by
    intro f g h args
    match args with
    | [] => rfl
    | [a] => exact run_mapS d.relog _ _ c (h a)
    | _ :: _ :: _ => rfl
  refine .cons ⟨rfl, fun a => ?_⟩ (.cons ⟨rfl, fun a => ?_⟩ (.cons ⟨rfl, o1 _ _ fun a => ?_⟩ (.cons ⟨rfl, o1 _ _ fun a => ?_⟩
    (.cons ⟨rfl, o1 _ _ fun a => ?_⟩ (.cons ⟨rfl, fun a => rfl⟩ (.cons ⟨rfl, o1 _ _ fun a => ?_⟩ (.cons ⟨rfl, fun a => rfl⟩
    (.cons ⟨rfl, o1 _ _ fun a => ?_⟩ .nil))))))))
  · cases a <;> rfl
  · cases a <;> rfl
  · split <;> rfl
  · simp only []
    split
    · rfl
    · cases eraseName a c.vars <;> rfl
  · split <;> rfl
  · cases integerLit a with
    | ok p => simp only [Res.bind_ok]; split <;> rfl
    | err e => rfl
    | ub => rfl
  · cases floatLit a with
    | ok p => simp only [Res.bind_ok]; split <;> rfl
    | err e => rfl
    | ub => rfl

theorem executeParsed_relog [StdSort] (pwd : Str) (d c : Ctx) (s : Option Session) (p : Parsed) :
    executeParsed pwd (d.relog c) s p = (executeParsed pwd c s p).mapS fun x => (d.relog x.1, x.2) := by
  unfold executeParsed
  simp only []
  split
  · rw [executeInType_relog]; cases executeInType c p <;> rfl
  split
  · rw [dispatch_mapS d.relog c _ _ p.name p.args (contextTable_relog d c)]
    cases dispatch c (contextTable c) p.name p.args <;> rfl
  split
  · rw [executeInVariable_relog]; cases executeInVariable c p <;> rfl
  split
  · cases s with
    | none => rfl
    | some t => simp only []; cases t.receive pwd p.name p.args <;> rfl
  · rfl

/-- Contexts with the same variables and settings answer in the same way. -/
theorem execute_sameData [StdSort] (pwd : Str) {c d : Ctx} (s : Option Session) (text : Str) (h : SameData c d) :
    SameEffect (execute pwd c s text) (execute pwd d s text) := by
  rw [relog_of_sameData h]
  unfold execute
  cases parse text with
  | ub => trivial
  | err e => simp [SameEffect, SameData, record_vars, record_cfg]
  | ok p =>
    simp only []
    rw [executeParsed_relog pwd d c s p]
    rcases executeParsed pwd c s p with ⟨⟨_, _⟩, _⟩ | ⟨⟨_, _⟩, _⟩ | _ <;>
      simp [Run.mapS, SameEffect, SameData, record_vars, record_cfg]

end Knuckle

import Verif.Proofs.ScarceReceive
import Verif.Proofs.ScarceSupply
import Verif.Proofs.Changes

namespace Knuckle.Scarce

open Spec
open Heap (Addr Cell Mem PosSort HCtx cellOf Same good_copy good_new Row Rows Placed ptrs ptrs_append ptrs_cons placed_congr good_congr
  Rep Stands RunSim find_rows insert_rows update_rows stands_mem bare_make Bare good_release_last good_release_shared record_stands)

/-! ### Messages to variables, types and the context -/

/-- What may happen to a context. -/
def allowedIn (S : Prop) (c : Ctx) (p : Parsed) : Allowed Ctx where
  short := S
  part c' := c' = c ∨ ∃ i i', c.vars.lookup p.actor = some i ∧ LeftOver c.cfg i p.name p.args i' ∧ c' = setVar c p.actor i'
  cut a b := ((∃ i, c.vars.lookup p.actor = some i ∧ ShowsFloat p.name i) ∨
    p.actor = b!"Context" ∧ p.name = b!"getFloatComparisonTolerance") ∧ CutShort c.cfg.prec a b
  ruin := ∃ i, c.vars.lookup p.actor = some i ∧ SortsStrings p.name p.args i

theorem executeInVariable_sim [PosSort] {h : HCtx} {c : Ctx} (hr : Stands h c) (hc : Inv c) (p : Parsed) {S : Prop} {f : Supply}
    (hf : Fed S f) :
    EndSim (allowedIn S c p) Stands (executeInVariable h p f) (@Knuckle.executeInVariable Heap.stdSortOf c p) := by
  obtain ⟨rs, hr⟩ := hr
  unfold executeInVariable Knuckle.executeInVariable
  have hfind := hc.find p.actor
  rw [hr.vals] at hfind
  rw [hr.vars, hr.vals]
  rcases find_rows p.actor rs with hn | ⟨A, r, B, rfl, hn, hA, hv⟩
  · rw [hn, hn]
    exact ⟨hf, c, rfl, rs, hr⟩
  · rw [hv, hv]
    rw [hv, ← hr.vals] at hfind
    have := receive_sim (n := r.name) (p := r.ptr) (c := r.cell) (i := r.val) hr.rows hf (hc.wellTyped hfind.symm) c.cfg p.name p.args
    simp only
    rw [hr.cfg]
    have key : ∀ {m' : Mem} {i' : Inst}, (∃ c', Rows m' (A ++ ⟨r.name, r.ptr, c', i'⟩ :: B)) →
        Stands { h with mem := m' } { c with vars := updateVar p.actor i' ((A ++ r :: B).map fun r => (r.name, r.val)) } := by
      rintro m' i' ⟨c', hR⟩
      refine ⟨_, hR, ?_, ?_, hr.cfg, hr.fileOpen, hr.quiet, hr.fileLog, hr.stdoutLog⟩
      · simp only; rw [hr.vars]; simp
      · simp only
        rw [update_rows (fun r => r.val) _ hn hA]; simp [hn]
    revert this
    generalize receive c.cfg r.ptr h.mem p.name p.args f = x
    generalize @Knuckle.receive Heap.stdSortOf c.cfg r.val p.name p.args = y
    intro this
    cases x with
    | ret m' a f' =>
      obtain ⟨hf', t, b, rfl, hab, hR⟩ := this
      refine ⟨hf', _, b, rfl, ?_, ?_⟩
      · rcases hab with rfl | ⟨hS, hx, hy⟩
        · exact .inl rfl
        · exact .inr ⟨hS, .inl ⟨r.val, hfind.symm, hx⟩, hy⟩
      · have := key hR
        rw [hr.cfg, hr.vars] at this
        exact this
    | thr m' e f' =>
      obtain ⟨hf', t, rfl, hR⟩ := this
      refine ⟨hf', _, rfl, ?_⟩
      have := key hR
      rw [hr.cfg, hr.vars] at this
      exact this
    | oom m' f' =>
      obtain ⟨hf', hS, t, ht, hR⟩ := this
      refine ⟨hf', hS, setVar c p.actor t, .inr ⟨r.val, t, hfind.symm, ht, rfl⟩, ?_⟩
      have := key hR
      rw [← hr.vals] at this
      rw [hr.cfg, hr.vars] at this
      exact this
    | unspecified => exact ⟨this.1, r.val, hfind.symm, this.2⟩
    | ub =>
      have this : y = .ub := this
      rw [this]
      rfl

theorem executeInType_sim {h : HCtx} {c : Ctx} (hr : Stands h c) (p : Parsed) {S : Prop} {f : Supply} (hf : Fed S f) :
    EndSim (allowedIn S c p) Stands (executeInType h p f) (Knuckle.executeInType c p) := by
  have hr0 := hr
  obtain ⟨rs, hr⟩ := hr
  have hi : ∀ n i, makeInstance p.actor p.name p.args = .ok (some (n, i)) → Bare i := fun n i e => bare_make _ _ _ _ e _ rfl
  have hsim := Heap.executeInType_sim hr0 p
  unfold executeInType
  rcases ask_cases hf with ⟨f', ea, hf'⟩ | ⟨k, f', ea, hf', hS⟩
  · rw [ea]
    simp only
    unfold Heap.executeInType at hsim
    rcases e : makeInstance p.actor p.name p.args with (_ | ⟨n, i⟩) | _ | _
    · rw [e] at hsim
      simp only at hsim ⊢
      generalize Knuckle.executeInType c p = y at hsim ⊢
      cases y <;> first | exact hsim.elim | rfl
    · rw [e] at hsim
      obtain ⟨hc, -⟩ := hi n i e h.mem
      obtain ⟨g, hq, hin, hs⟩ := good_new hr.rows.good (cellOf i)
      simp only at hsim ⊢
      rcases ef : mapFind strLt n h.vars with _ | a
      · rw [ef] at hsim
        simp only at hsim ⊢
        rcases ask_cases hf' with ⟨f2, ea2, hf2⟩ | ⟨k, f2, ea2, hf2, hS⟩
        · rw [ea2]
          simp only
          obtain ⟨m1, e1, g1, s1⟩ := good_copy g (p := (h.mem.new (cellOf i)).1) (by simp)
          obtain ⟨m2, e2, g2, s2⟩ := good_release_shared g1 (c := cellOf i) (by rw [s1, hin]) (by simp)
          rw [e1] at hsim ⊢
          simp only [Heap.leaving, leaving, e2] at hsim ⊢
          generalize Knuckle.executeInType c p = y at hsim ⊢
          cases y <;> try exact hsim.elim
          exact ⟨hf2, _, _, rfl, .inl hsim.1, hsim.2⟩
        · rw [ea2]
          obtain ⟨m2, e2, g2, s2⟩ := good_release_last (c := cellOf i) (P := ptrs rs) (by rw [hc]; exact g) hin
            (by rw [hc]; exact hq) (by rw [hc]; intro q hq; cases hq)
          simp only [leaving, e2]
          refine ⟨hf2, hS, c, .inl rfl, ?_⟩
          have hR : Rows m2 rs := ⟨g2, hr.rows.nodup, placed_congr hr.rows.placed (hs.trans s2)⟩
          exact ⟨rs, hR, hr.vars, hr.vals, hr.cfg, hr.fileOpen, hr.quiet, hr.fileLog, hr.stdoutLog⟩
      · rw [ef] at hsim
        simp only at hsim ⊢
        obtain ⟨m2, e2, g2, s2⟩ := good_release_last (c := cellOf i) (P := ptrs rs) (by rw [hc]; exact g) hin
            (by rw [hc]; exact hq) (by rw [hc]; intro q hq; cases hq)
        by_cases hx : startsWith p.name b!"createIfNotExists:" = true
        · rw [if_pos hx] at hsim ⊢
          simp only [Heap.leaving, leaving, e2] at hsim ⊢
          generalize Knuckle.executeInType c p = y at hsim ⊢
          cases y <;> try exact hsim.elim
          exact ⟨hf', _, _, rfl, .inl hsim.1, hsim.2⟩
        · rw [if_neg hx] at hsim ⊢
          simp only [Heap.leaving, leaving, e2] at hsim ⊢
          generalize Knuckle.executeInType c p = y at hsim ⊢
          cases y <;> try exact hsim.elim
          obtain ⟨rfl, hR⟩ := hsim
          exact ⟨hf', _, rfl, hR⟩
    · rw [e] at hsim
      simp only at hsim ⊢
      generalize Knuckle.executeInType c p = y at hsim ⊢
      cases y <;> try exact hsim.elim
      obtain ⟨rfl, hR⟩ := hsim
      exact ⟨hf', _, rfl, hR⟩
    · rw [e] at hsim
      simp only at hsim ⊢
      generalize Knuckle.executeInType c p = y at hsim ⊢
      cases y <;> first | exact hsim.elim | rfl
  · rw [ea]
    exact ⟨hf', hS, c, .inl rfl, hr0⟩

theorem executeInContext_sim {h : HCtx} {c : Ctx} (hr : Stands h c) (p : Parsed) (hp : p.actor = b!"Context") {S : Prop} {f : Supply}
    (hf : Fed S f) :
    EndSim (allowedIn S c p) Stands (executeInContext h p f) (Knuckle.dispatch c (Knuckle.contextTable c) p.name p.args) := by
  refine end_once (A := allowedIn S c p) hf hr (.inl rfl) (Heap.context_sim hr p.name p.args) ?_
  intro hn t b e
  have hn : p.name = b!"getFloatComparisonTolerance" := by simpa using hn
  rw [hn] at e
  have e : (Run.ret c (fmtFixed c.cfg.prec c.cfg.eps) : Run Ctx) = .ret t b := e
  cases e
  exact ⟨.inl rfl, fun k _ => ⟨.inr ⟨hp, hn⟩, cut_float _ k⟩⟩

/-! ### Requests -/

/-- What may happen to a context and a session. -/
def allowedBoth (S : Prop) (c : Ctx) (s : Option Session) (p : Parsed) : Allowed (Ctx × Option Session) where
  short := S
  part x := (allowedIn S c p).part x.1 ∧ x.2 = s
  cut := (allowedIn S c p).cut
  ruin := (allowedIn S c p).ruin

/-- The program and the values. -/
def Both (x : HCtx × Option Session) (y : Ctx × Option Session) : Prop := Stands x.1 y.1 ∧ x.2 = y.2

theorem keep_sim {S : Prop} {c : Ctx} {p : Parsed} {e : End HCtx} {r : Run Ctx} (h : EndSim (allowedIn S c p) Stands e r)
    (s : Option Session) : EndSim (allowedBoth S c s p) Both (keep s e) (onCtx s r) := by
  cases e with
  | ret x a f =>
    obtain ⟨hf, t, b, rfl, hab, hR⟩ := h
    exact ⟨hf, _, b, rfl, hab, hR, rfl⟩
  | thr x e f =>
    obtain ⟨hf, t, rfl, hR⟩ := h
    exact ⟨hf, _, rfl, hR, rfl⟩
  | oom x f =>
    obtain ⟨hf, hS, t, ht, hR⟩ := h
    exact ⟨hf, hS, (t, s), ⟨ht, rfl⟩, hR, rfl⟩
  | unspecified => exact h
  | ub =>
    have h : r = .ub := h
    subst h
    rfl

theorem executeParsed_sim [PosSort] (pwd : Str) {h : HCtx} {c : Ctx} (hr : Stands h c) (hc : Inv c) (s : Option Session) (p : Parsed)
    {S : Prop} {f : Supply} (hf : Fed S f) :
    EndSim (allowedBoth S c s p) Both (executeParsed pwd h s p f) (@Knuckle.executeParsed Heap.stdSortOf pwd c s p) := by
  letI := Heap.stdSortOf
  unfold executeParsed
  split
  · rename_i h1
    rw [executeParsed_type _ _ _ _ h1]
    exact keep_sim (executeInType_sim hr p hf) s
  · rename_i n1
    split
    · rename_i h1
      rw [executeParsed_context _ _ _ _ h1]
      exact keep_sim (executeInContext_sim hr p ((isContext_eq _).1 h1) hf) s
    · rename_i n2
      split
      · rename_i h1
        rw [executeParsed_variable _ _ _ _ h1]
        exact keep_sim (executeInVariable_sim hr hc p hf) s
      · rename_i n3
        split
        · rename_i h1
          rw [executeParsed_connection _ _ _ _ h1]
          cases s with
          | none => rfl
          | some s =>
            simp only [executeInConnection]
            have := end_once (A := ⟨S, fun t => t = s, fun _ _ => False, False⟩) (R := fun x y => x = y) (s := s) (t := s) hf rfl rfl
              (run := s.receive pwd p.name p.args) (r := s.receive pwd p.name p.args)
              (by rcases s.receive pwd p.name p.args with ⟨_, _⟩ | ⟨_, _⟩ | _ <;> first | exact ⟨rfl, rfl⟩ | trivial)
              (printing := false) (by simp)
            revert this
            generalize once s false (s.receive pwd p.name p.args) f = x
            generalize s.receive pwd p.name p.args = y
            intro this
            cases x with
            | ret x a f =>
              obtain ⟨hf, t, b, rfl, hab, rfl⟩ := this
              rcases hab with rfl | ⟨_, hx⟩
              · exact ⟨hf, _, _, rfl, .inl rfl, hr, rfl⟩
              · exact hx.elim
            | thr x e f =>
              obtain ⟨hf, t, rfl, rfl⟩ := this
              exact ⟨hf, _, rfl, hr, rfl⟩
            | oom x f =>
              obtain ⟨hf, hS, t, rfl, rfl⟩ := this
              exact ⟨hf, hS, (c, _), ⟨.inl rfl, rfl⟩, hr, rfl⟩
            | unspecified => exact this.2.elim
            | ub =>
              have h : y = .ub := this
              subst h
              rfl
        · rename_i n4
          have : Knuckle.executeParsed pwd c s p = .ret (c, s) [] := by
            simp only [Knuckle.executeParsed, n1, n2, n3, n4, Bool.false_eq_true, if_false]
          rw [this]
          exact ⟨hf, _, _, rfl, .inl rfl, hr, rfl⟩

theorem record_inj {x y : Ctx} {text r r' : Str} (h : x.record text r = y.record text r) :
    x.fileOpen = y.fileOpen ∧ x.quiet = y.quiet ∧ x.fileLog = y.fileLog ∧ x.stdoutLog = y.stdoutLog := by
  have h1 := congrArg Ctx.fileOpen h
  have h2 := congrArg Ctx.quiet h
  have h3 := congrArg Ctx.fileLog h
  have h4 := congrArg Ctx.stdoutLog h
  unfold Ctx.record at h1 h2 h3 h4
  cases hx : x.fileOpen <;> cases hy : y.fileOpen <;> cases hx' : x.quiet <;> cases hy' : y.quiet <;> simp_all

theorem recorded_of {c x : Ctx} {text r : Str} (h1 : x.fileOpen = c.fileOpen) (h2 : x.quiet = c.quiet) (h3 : x.fileLog = c.fileLog)
    (h4 : x.stdoutLog = c.stdoutLog) : Recorded c (x.record text r) text r := by
  unfold Recorded Ctx.record
  rw [h1, h2]
  cases hf : c.fileOpen <;> cases hq : c.quiet <;> simp [h1, h2, h3, h4, hf, hq]

/-- A message does not touch the logs. -/
theorem message_logs [StdSort] {pwd : Str} {c x : Ctx} (hc : Inv c) {s s' : Option Session} {text r : Str}
    (h : Knuckle.execute pwd c s text = .done (x.record text r, s', r)) :
    x.fileOpen = c.fileOpen ∧ x.quiet = c.quiet ∧ x.fileLog = c.fileLog ∧ x.stdoutLog = c.stdoutLog := by
  obtain ⟨y, e, hd⟩ := execute_done hc h
  obtain ⟨h1, h2, h3, h4⟩ := record_inj (r' := r) e
  rw [h1, h2, h3, h4]
  rcases hd with hd | ⟨e, hd, -⟩
  · generalize hy : Run.ret (y, s') r = z at hd
    cases hd with
    | @context m l w hst h => cases h <;> cases hy <;> exact ⟨rfl, rfl, rfl, rfl⟩
    | connection _ hs h => cases h <;> cases hy <;> exact ⟨rfl, rfl, rfl, rfl⟩
    | _ => cases hy <;> exact ⟨rfl, rfl, rfl, rfl⟩
  · rw [(does_thr hd).1]; exact ⟨rfl, rfl, rfl, rfl⟩

theorem fed_refused {S : Prop} {f : Supply} (h : Fed S f) (hd : Refused f) : S := hd.elim h

/-- How a request may end. -/
def Sound [StdSort] (pwd : Str) (h : HCtx) (c : Ctx) (s : Option Session) (text : Str) (f : Supply) : Ending → Prop
  | .done h' s' r => ∃ c', Stands h' c' ∧ Scarcely pwd c s text f c' s' r
  | .dies => Fatal pwd c s text f
  | .unspecified => Refused f ∧ ∃ n i, Statement text n b!"sort" [] ∧ Holds c n i ∧ SortsStrings b!"sort" [] i
  | .ub => Knuckle.execute pwd c s text = .ub

theorem logged_sound [StdSort] {pwd : Str} {h h0 : HCtx} {c c0 : Ctx} {s s0 : Option Session} {text r : Str} {f f0 : Supply}
    (hf : Fed (Refused f0) f) (hr : Stands h c) (hs : Scarcely pwd c0 s0 text f0 (c.record text r) s r)
    (hl : c.fileOpen = c0.fileOpen ∧ c.quiet = c0.quiet) : Sound pwd h0 c0 s0 text f0 (logged h s text r f) := by
  have hrec := record_stands hr text r
  unfold logged
  split
  · rename_i hon
    obtain ⟨rs, hr⟩ := hr
    rw [hr.fileOpen, hr.quiet, hl.1, hl.2] at hon
    rcases ask_cases hf with ⟨f', e, -⟩ | ⟨k, f', e, -, hS⟩
    · rw [e]; exact ⟨_, hrec, hs⟩
    · rw [e]; exact .inr (.inr ⟨hS, by simpa using hon⟩)
  · rename_i hn
    have : h.record text r = h := by
      unfold HCtx.record
      cases h1 : h.fileOpen <;> cases h2 : h.quiet <;> simp [h1, h2] at hn ⊢
    rw [this] at hrec
    exact ⟨_, hrec, hs⟩

theorem caught_sound [StdSort] {pwd : Str} {h h0 : HCtx} {c c0 : Ctx} {s s0 : Option Session} {text : Str} {e : Exc} {f f0 : Supply}
    (hf : Fed (Refused f0) f) (hr : Stands h c) (hs : Scarcely pwd c0 s0 text f0 (c.record text e.text) s e.text)
    (hl : c.fileOpen = c0.fileOpen ∧ c.quiet = c0.quiet) (hd : Refused f → Fatal pwd c0 s0 text f0) :
    Sound pwd h0 c0 s0 text f0 (caught h s text e f) := by
  unfold caught
  rcases ask_cases hf with ⟨f', e, hf'⟩ | ⟨k, f', e, -, hS⟩
  · rw [e]; exact logged_sound hf' hr hs hl
  · rw [e]; exact hd ⟨k, by rw [ask_refused e]; exact List.mem_cons_self⟩

theorem execute_sound [PosSort] (pwd : Str) {h : HCtx} {c : Ctx} (hr : Stands h c) (hc : Inv c) (s : Option Session) (text : Str)
    (f : Supply) : @Sound Heap.stdSortOf pwd h c s text f (execute pwd h s text f) := by
  letI := Heap.stdSortOf
  have hf : Fed (Refused f) f := fun k hk => ⟨k, hk⟩
  have hsame : ∀ x r, SameData x (x.record text r) := fun x r => ⟨record_vars _ _ _, record_cfg _ _ _⟩
  unfold execute
  rcases ask_cases hf with ⟨f1, e, hf1⟩ | ⟨k, f1, e, hf1, hS⟩
  · rw [e]
    simp only
    rcases ep : parse text with p | x | _
    · have hst := (parse_iff text p).1 ep
      have := executeParsed_sim pwd hr hc s p hf1
      have left := left_parsed pwd h s p f1
      have ex : Knuckle.execute pwd c s text = _ := execute_statement pwd c s _ _ _ _ hst
      simp only
      revert this left
      generalize executeParsed pwd h s p f1 = x
      generalize hy : Knuckle.executeParsed pwd c s p = y
      rw [show (⟨p.actor, p.name, p.args⟩ : Parsed) = p from rfl, hy] at ex
      intro this left
      cases x with
      | ret x a f2 =>
        obtain ⟨h', s'⟩ := x
        obtain ⟨hf2, ⟨c', t⟩, b, rfl, hab, hR, rfl⟩ := this
        refine logged_sound hf2 hR ?_ ⟨(message_logs hc ex).1, (message_logs hc ex).2.1⟩
        rcases hab with rfl | ⟨hS, hfl, hcut⟩
        · exact .ordinary ex
        · obtain ⟨h1, h2, h3, h4⟩ := message_logs hc ex
          refine .cut hS ex ?_ hcut ⟨?_, ?_⟩ (recorded_of h1 h2 h3 h4)
          · rcases hfl with ⟨i, hi, hsh⟩ | ⟨ha, hn⟩
            · exact .inl ⟨_, _, _, i, hst, hi, hsh⟩
            · rw [ha, hn] at hst
              exact .inr ⟨_, hst⟩
          · rw [record_vars, record_vars]
          · rw [record_cfg, record_cfg]
      | thr x e f2 =>
        obtain ⟨h', s'⟩ := x
        obtain ⟨hf2, ⟨c', t⟩, rfl, hR, rfl⟩ := this
        exact caught_sound hf2 hR (.ordinary ex) ⟨(message_logs hc ex).1, (message_logs hc ex).2.1⟩
          fun hd => .inr (.inl ⟨fed_refused hf2 hd, _, _, _, ex⟩)
      | oom x f2 =>
        obtain ⟨h', s'⟩ := x
        obtain ⟨hf2, hS, ⟨c', t⟩, ⟨hp, rfl⟩, hR, rfl⟩ := this
        obtain ⟨k2, hk2⟩ := left
        refine caught_sound hf2 hR ?_ (by rcases hp with rfl | ⟨i, i', -, -, rfl⟩ <;> exact ⟨rfl, rfl⟩)
          fun hd => .inl ⟨k2, f2, hk2.trans (ask_snd e), hd⟩
        rcases hp with rfl | ⟨i, i', hi, hl, rfl⟩
        · exact .nothing hS (hsame _ _) (recorded_of rfl rfl rfl rfl)
        · exact .interrupted hS hst hi hl (onlyChanged_record _ _ _ _ _ _ (onlyChanged_setVar _ _ _ _ hi)) (recorded_of rfl rfl rfl rfl)
      | unspecified =>
        obtain ⟨hS, i, hi, hsort⟩ := this
        obtain ⟨hn, ha, rest⟩ := hsort
        rw [hn, ha] at hst
        exact ⟨hS, _, i, hst, hi, rfl, rfl, rest⟩
      | ub =>
        have this : y = .ub := this
        subst this
        exact ex
    · have ex : Knuckle.execute pwd c s text = .done (c.record text x.text, s, x.text) := by
        unfold Knuckle.execute; rw [ep]
      exact caught_sound hf1 hr (.ordinary ex) ⟨rfl, rfl⟩ fun hd => .inr (.inl ⟨fed_refused hf1 hd, _, _, _, ex⟩)
    · show Knuckle.execute pwd c s text = .ub
      unfold Knuckle.execute; rw [ep]
  · rw [e]
    exact caught_sound hf1 hr (.nothing hS (hsame _ _) (recorded_of rfl rfl rfl rfl)) ⟨rfl, rfl⟩
      fun hd => .inl ⟨k, f1, ask_refused e ▸ List.suffix_refl _, hd⟩

end Knuckle.Scarce

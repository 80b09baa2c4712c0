/-
C78: printing is stable: what `get` prints of a float is read as a float that prints as the same text.
-/
import Verif.Proofs.Stable
import Verif.Props.Rebuild

namespace Knuckle.Props

open Spec

variable {c : Ctx} {pwd : Str} {s : Option Session}

theorem nearestInt_unique {x : ℚ} {m m' : ℤ} (h : NearestInt x m) (h' : NearestInt x m') : m = m' := by
  by_contra hne
  have e : |x - m| = |x - m'| := le_antisymm (h.1 m') (h'.1 m)
  obtain ⟨i, rfl⟩ := h.2 m' (Ne.symm hne) e.symm
  obtain ⟨j, rfl⟩ := h'.2 _ hne e
  have h1 := nearestInt_half h
  have h2 := nearestInt_half h'
  have h3 : |((2 * i : ℤ) : ℚ) - (2 * j : ℤ)| ≤ 1 := by
    have : ((2 * i : ℤ) : ℚ) - (2 * j : ℤ) = (x - (2 * j : ℤ)) - (x - (2 * i : ℤ)) := by ring
    rw [this]
    refine le_trans (abs_sub _ _) ?_
    linarith
  have h4 : |2 * i - 2 * j| ≤ 1 := by
    have h5 : ((|2 * i - 2 * j| : ℤ) : ℚ) ≤ ((1 : ℤ) : ℚ) := by
      rw [Int.cast_abs]; push_cast at h3 ⊢; exact h3
    exact Int.cast_le.1 h5
  have := abs_le.1 h4
  omega

theorem fmtFixed_same {prec : ℤ} {b : Bool} {k k' : ℕ} {m : ℤ} (hp : 0 ≤ prec) (h : NearestInt ((k : ℚ) / unit * 10 ^ prec.toNat) m)
    (h' : NearestInt ((k' : ℚ) / unit * 10 ^ prec.toNat) m) : fmtFixed prec (.fin b k) = fmtFixed prec (.fin b k') := by
  have key : ∀ j : ℕ, NearestInt ((j : ℚ) / unit * 10 ^ prec.toNat) (rhe (j * 10 ^ prec.toNat) oneK) := by
    intro j
    have := rhe_nearestInt (j * 10 ^ prec.toNat) oneK oneK_pos
    rw [unit_eq] at this
    have e : ((j * 10 ^ prec.toNat : ℕ) : ℚ) / unit = (j : ℚ) / unit * 10 ^ prec.toNat := by
      push_cast; rw [div_mul_eq_mul_div]
    rwa [e] at this
  have e1 := nearestInt_unique (key k) h
  have e2 := nearestInt_unique (key k') h'
  have e3 : rhe (k * 10 ^ prec.toNat) oneK = rhe (k' * 10 ^ prec.toNat) oneK := by
    exact_mod_cast e1.trans e2.symm
  have e0 : ¬ prec < 0 := by omega
  simp only [fmtFixed, if_neg e0, e3]

/-- The largest number of the `float` format. -/
theorem grid_max {x : ℚ} (hx : OnGrid 24 149 x) (h : |x| < 2 ^ 128) : |x| ≤ 2 ^ 128 - 2 ^ 104 := by
  obtain ⟨a, k, rfl, ha, _⟩ := hx
  rw [abs_mul, abs_of_pos (zpos k)] at h ⊢
  have ea : |(a : ℚ)| = ((|a| : ℤ) : ℚ) := (Int.cast_abs).symm
  rw [ea] at h ⊢
  generalize |a| = b at *
  rcases le_or_gt 104 k with hk | hk
  · rw [zpow_split hk, ← mul_assoc] at h ⊢
    push_cast at h ⊢
    have h1 : ((b * 2 ^ (k - 104).toNat : ℤ) : ℚ) < ((2 ^ 24 : ℤ) : ℚ) := by
      have h2 : ((b : ℚ) * 2 ^ (k - 104).toNat) * 2 ^ (104 : ℤ) < 2 ^ 24 * 2 ^ (104 : ℤ) := by
        refine lt_of_lt_of_le h (le_of_eq ?_); norm_num
      have := (mul_lt_mul_iff_left₀ (zpos 104)).1 h2
      push_cast; exact this
    have h3 : b * 2 ^ (k - 104).toNat ≤ 2 ^ 24 - 1 := by have := Int.cast_lt.1 h1; omega
    have h4 : ((b : ℚ) * 2 ^ (k - 104).toNat) ≤ 2 ^ 24 - 1 := by
      have : ((b * 2 ^ (k - 104).toNat : ℤ) : ℚ) ≤ ((2 ^ 24 - 1 : ℤ) : ℚ) := Int.cast_le.2 h3
      push_cast at this; linarith
    calc _ ≤ ((2 : ℚ) ^ 24 - 1) * 2 ^ (104 : ℤ) := mul_le_mul_of_nonneg_right h4 (zpos 104).le
      _ = 2 ^ 128 - 2 ^ 104 := by norm_num
  · have h1 : (b : ℚ) ≤ 2 ^ 24 - 1 := by
      have : ((b : ℤ) : ℚ) ≤ ((2 ^ 24 - 1 : ℤ) : ℚ) := Int.cast_le.2 (by have : b < 2 ^ 24 := by exact_mod_cast ha
                                                                         omega)
      push_cast at this; linarith
    calc (b : ℚ) * 2 ^ k ≤ (2 ^ 24 - 1) * 2 ^ (104 : ℤ) :=
          mul_le_mul h1 (zpow_le_of hk.le) (zpos k).le (by norm_num)
      _ = _ := by norm_num

/-- What a finite float prints as is read as a float that prints as the same. -/
theorem prints_again {v x : Fl} {q : ℚ} {prec : ℤ} (hv : v.toF32 = v) (hq : number v = some q)
    (hd : Denotes b!"Float" (fmtFixed prec v) (.float x)) : fmtFixed prec x = fmtFixed prec v := by
  rw [fmtFixed_decimals] at hd ⊢
  rw [fmtFixed_decimals prec v]
  generalize decimals prec = p at *
  obtain ⟨hg, hb⟩ := single_number hv hq
  obtain ⟨k, hk, e, hs⟩ := abs_number hq
  obtain ⟨m, h1, h2⟩ := fmtFixed_text p (by omega) (signBit v) k
  rw [← hk, Int.toNat_natCast] at h1
  rw [Int.toNat_natCast, ← e] at h2
  have hl := fixedText_literal h1
  have herr := text_error (m := (m : ℤ)) hs h2
  rw [Int.cast_natCast] at herr
  have h10 : (0 : ℚ) < 10 ^ p := by positivity
  have h10' : (1 : ℚ) ≤ 10 ^ p := one_le_pow₀ (by norm_num)
  rcases le_or_gt 46 p with hp | hp
  · have := denotes_near hl hv rfl hq herr (fun y hy hne => ?_) hd
    · rw [this]
    · refine lt_of_lt_of_le ?_ (grid_apart_min hg hy hne)
      have : (10 : ℚ) ^ 46 ≤ 10 ^ p := pow_le_pow_right₀ (by norm_num) hp
      calc 4 * (1 / 2 / 10 ^ p : ℚ) ≤ 4 * (1 / 2 / 10 ^ 46) :=
            mul_le_mul_of_nonneg_left (div_le_div_of_nonneg_left (by norm_num) (by positivity) this) (by norm_num)
        _ < _ := by norm_num
  · -- the number that is read is finite
    have hfin : ¬ x = .inf (signBit v) := by
      rw [C53_overflow hl hd]
      intro hc
      have h3 := grid_max hg hb
      have h4 : |(if signBit v then (-1 : ℚ) else 1) * ((m : ℚ) / 10 ^ p)| ≤ |q| + 1 / 2 := by
        have h5 : (1 : ℚ) / 2 / 10 ^ p ≤ 1 / 2 := div_le_self (by norm_num) h10'
        have h6 := abs_sub_abs_le_abs_sub ((if signBit v then (-1 : ℚ) else 1) * ((m : ℚ) / 10 ^ p)) q
        linarith
      norm_num at h3 hc h4
      linarith
    obtain ⟨neg', q', d, x', g1, g2, g3, g4⟩ := (C53_denotes _ _).1 hd
    injection g4 with g4; subst g4
    obtain ⟨rfl, rfl⟩ := floatLiteral_unique hl g1
    obtain ⟨u, j1, j2, j3⟩ := g2
    rcases j3 with ⟨j3, j4⟩ | ⟨j3, rfl⟩
    · cases g3 with
      | nan => cases j4
      | inf b => cases j4
      | num k1 k2 =>
        rw [j4] at k1; injection k1 with k1; subst k1
        obtain ⟨r, i1, i2, i3⟩ := k2
        rw [j2] at i2
        rcases i3 with ⟨i3, i4⟩ | ⟨i3, i4⟩
        · obtain ⟨k', hk', e', _⟩ := abs_number i4
          have ha1 := nearest_abs (p := 53) (e := 1074) (by decide) (by decide) j1
          have ha2 := nearest_abs (p := 24) (e := 149) (by decide) (by decide) i1
          have hT : |(if signBit v then (-1 : ℚ) else 1) * ((m : ℚ) / 10 ^ p)| = (m : ℚ) / 10 ^ p := by
            rw [sign_mul_abs, abs_of_nonneg (div_nonneg (Nat.cast_nonneg _) h10.le)]
          have hg' : OnGrid 24 149 |q| := by
            rcases abs_choice q with h | h <;> rw [h]
            · exact hg
            · exact onGrid_neg hg
          have := reread (p := p) (m := m) (by omega) hg' h2 hT ha1 ha2
          rw [hk, hk', i2]
          refine fmtFixed_same (m := m) (by omega) ?_ ?_
          · rw [Int.toNat_natCast, ← e']; exact this
          · rw [Int.toNat_natCast, ← e]; exact h2
        · exact absurd (by rw [i4, j2]) hfin
    · cases g3 with
      | inf b => exact absurd rfl hfin
      | num k1 _ => cases k1

/-- C78: what `get` replies for a finite float, with any precision, can be given to `set:` of any float variable, which then prints as the
same text. -/
theorem C78_float [StdSort] {n n' t t' t'' r : Str} {v w : Fl} {q : ℚ} (hc : Reachable c) (hn : Holds c n (.float v))
    (hn' : Holds c n' (.float w)) (hq : number v = some q) (h : Statement t n b!"get" []) (hr : JustReplies pwd c s t r)
    (h' : Statement t' n' b!"set:" [r]) (h'' : Statement t'' n' b!"get" []) :
    ∃ c₁, Replies pwd c s t' b!"null" c₁ ∧ JustReplies pwd c₁ s t'' r := by
  have hj := justReplies_of hc hn (answers_flt (pwd := pwd) (s := s) hc hn h .get)
  have e : r = fmtFixed c.cfg.prec v := by
    obtain ⟨_, hd, _⟩ := hj
    obtain ⟨_, he, _⟩ := hr
    unfold Replies at hd he; rw [hd] at he
    injection he with he; injection he with _ he; injection he with _ he
    exact he.symm
  obtain ⟨D, hl, _⟩ := C54_reply_is_literal hc hn hq h hr
  obtain ⟨d, x, c₁, h3, h4, h5, h6⟩ := C53_set (pwd := pwd) (s := s) hc hn' hl h'
  have hden : Denotes b!"Float" r (.float x) := (C53_denotes r _).2 ⟨_, _, _, _, hl, h3, h4, rfl⟩
  refine ⟨c₁, h5, ?_⟩
  have h7 := (Becomes.of h6).holds
  have hj' := justReplies_of (.step hc h5) h7 (answers_flt (pwd := pwd) (s := s) (.step hc h5) h7 h'' .get)
  rw [e] at hden
  have := prints_again (holds_wellTyped hc hn) hq hden
  rw [← h6.1] at e this
  change JustReplies _ _ _ _ (fmtFixed c₁.cfg.prec x) at hj'
  rw [this, ← e] at hj'
  exact hj'

/-- The text of an element, given to a container of the same type, denotes an element with the same text. -/
theorem element_again {t : Str} {o : Obj} {prec : ℤ} (ho : Writable t o) (hf : ∀ x, o = .float x → ∃ q, number x = some q) :
    ∃ o', Denotes t (o.repr prec) o' ∧ o'.repr prec = o.repr prec := by
  cases o with
  | float x =>
    obtain ⟨q, hq⟩ := hf x rfl
    have ht := writable_type ho
    have et : t = b!"Float" := ht.1.symm
    subst et
    obtain ⟨k, hk, _, _⟩ := abs_number hq
    obtain ⟨m, h1, _⟩ := fmtFixed_text (decimals prec) (by omega) (signBit x) k
    rw [← hk, ← fmtFixed_decimals] at h1
    have hl := fixedText_literal h1
    have hd : Denotes b!"Float" (fmtFixed prec x) (.float (atof (fmtFixed prec x)).toF32) := .float ((floatLiteral_exists _).2 ⟨_, _, hl⟩)
    exact ⟨_, hd, prints_again ht.2 hq hd⟩
  | integer n => exact ⟨_, denotes_of_writable ho, rfl⟩
  | string n => exact ⟨_, denotes_of_writable ho, rfl⟩
  | boolean n => exact ⟨_, denotes_of_writable ho, rfl⟩
  | character n => exact ⟨_, denotes_of_writable ho, rfl⟩

/-- C78: a Vector that is copied, element by element, by giving the replies of `atIndex:` to `pushBack:` of an empty Vector of the same type
is printed like the original (if it contains no infinity, which is not printed as a literal). -/
theorem C78_vector [StdSort] {n w t : Str} {l : List Obj} {rs : List Str} (hc : Reachable c) (hn : Holds c n (.vector t l))
    (hw : Holds c w (.vector t [])) (hf : ∀ x, .float x ∈ l → ∃ q, number x = some q) (hlen : rs.length = l.length)
    (hsize : l.length < 2 ^ 31) (hr : ∀ i (h : i < rs.length), JustReplies pwd c s (request n [(b!"atIndex:", intStr i)]) rs[i]) :
    ∃ c', Accepted pwd s c (rs.map fun r => request w [(b!"pushBack:", r)]) c' ∧
      ∀ q q' r, Statement q n b!"get" [] → Statement q' w b!"get" [] → JustReplies pwd c s q r → JustReplies pwd c' s q' r := by
  have hp := holds_proper hc hn
  have ers : rs = l.map (Obj.repr c.cfg.prec) := by
    refine List.ext_getElem (by rw [hlen, List.length_map]) fun i h1 h2 => ?_
    rw [List.getElem_map]
    have hi : i < l.length := by rw [← hlen]; exact h1
    have hd : Denotes b!"Integer" (intStr i) (.integer i) := .integer (intStr_literal _) ⟨by omega, by omega⟩
    have ha := answers_vec (pwd := pwd) (s := s) hc hn (one_statement (variable_actor (holds_variable hc hn)) (by decide +kernel) (literal_argument hd)) (.atIndex hd)
    have hm : vecMeaning c.cfg l (.atIndex i) = .gives l (l[i].repr c.cfg.prec) := by
      have : (0 : ℤ) ≤ (i : ℤ) ∧ (i : ℤ) < l.length := ⟨by omega, by omega⟩
      simp only [vecMeaning, dif_pos this]; rfl
    rw [hm] at ha
    exact reply_unique (hr i h1) (justReplies_of hc hn ha)
  have hex : ∀ m : List Obj, (∀ o ∈ m, o ∈ l) → ∃ ps : List (Obj × Obj), ps.map (·.1) = m ∧
      ∀ p ∈ ps, Denotes t (p.1.repr c.cfg.prec) p.2 ∧ p.2.repr c.cfg.prec = p.1.repr c.cfg.prec := by
    intro m
    induction m with
    | nil => exact fun _ => ⟨[], rfl, fun p hp => by cases hp⟩
    | cons o m ih =>
      intro hm
      obtain ⟨ps, h1, h2⟩ := ih fun o ho => hm o (List.mem_cons_of_mem _ ho)
      have hol := hm o (List.mem_cons_self ..)
      obtain ⟨o', h3, h4⟩ := element_again (prec := c.cfg.prec) (hp.2 o hol) (fun x hx => hf x (hx ▸ hol))
      refine ⟨(o, o') :: ps, by rw [List.map_cons, h1], fun p hp => ?_⟩
      rcases List.mem_cons.1 hp with rfl | hp
      · exact ⟨h3, h4⟩
      · exact h2 p hp
  obtain ⟨ps, h1, h2⟩ := hex l fun _ h => h
  obtain ⟨c', h3, h4⟩ := fill (pwd := pwd) (s := s) (n := w) (cfg := c.cfg) (fun m : List (Obj × Obj) => Inst.vector t (m.map (·.2)))
    (fun p => request w [(b!"pushBack:", p.1.repr c.cfg.prec)]) ps (fun c₁ m a r e hc₁ _ hm => by
      have hd := (h2 a (by rw [e]; simp)).1
      have := answers_vec (pwd := pwd) (s := s) hc₁ hm (one_statement (variable_actor (holds_variable hc hw)) (by decide +kernel) (literal_argument hd)) (.pushBack hd)
      rw [List.map_append]
      exact this) [] ps c rfl hc rfl hw
  refine ⟨c', ?_, fun q q' r hq hq' hj => ?_⟩
  · rw [ers, ← h1, List.map_map, List.map_map]; exact h3
  · have hc' := h3.reachable hc
    have a1 := justReplies_of hc hn (answers_vec (pwd := pwd) (s := s) hc hn hq .get)
    have a2 := justReplies_of hc' h4.holds (answers_vec (pwd := pwd) (s := s) hc' h4.holds hq' .get)
    rw [reply_unique hj a1]
    have e : vectorText c'.cfg.prec (ps.map (·.2)) = vectorText c.cfg.prec l := by
      unfold vectorText
      rw [h4.1, ← h1, List.map_map, List.map_map]
      congr 1
      exact List.map_congr_left fun p hp => (h2 p hp).2
    rw [e] at a2
    exact a2

/-! Cases: 1/16 is printed as 0.062 with three decimals, which is read as another float. -/

theorem sixteenth : number (.fin false (2 ^ 1070)) = some (1 / 16 : ℚ) := by
  rw [number_fin]
  have : ((2 ^ 1070 : ℕ) : ℚ) / unit = 1 / 16 := by
    rw [unit_two]
    push_cast
    rw [show (2 : ℚ) ^ 1074 = 2 ^ 1070 * 16 by rw [show (16 : ℚ) = 2 ^ 4 by norm_num, ← pow_add]]
    field_simp
  rw [this]; simp

/-- A float, a vector of floats and an empty one, with three decimals. -/
def sixteenths : Ctx := { fresh with vars := [(b!"f", .float (.fin false (2 ^ 1070))),
  (b!"v", .vector b!"Float" [.float (.fin false (2 ^ 1070)), .float (.fin false (3 * 2 ^ 1073))]), (b!"w", .vector b!"Float" [])] }

theorem sixteenths_reachable [StdSort] : Reachable sixteenths :=
  after_reachable (pwd := []) (s := none) (ts := [b!"Float create: f withValue: .0625;", b!"Vector<Float> create: v;", b!"v pushBack: .0625;",
    b!"v pushBack: 1.5;", b!"Vector<Float> create: w;"]) fresh_reachable (by kernel_rfl)

theorem sixteenths_get [StdSort] : JustReplies [] sixteenths none b!"f get;" b!"0.062" :=
  ⟨sixteenths, by unfold Replies; kernel_rfl, rfl, rfl⟩

example [StdSort] : ∃ c₁, Replies [] sixteenths none b!"f set: 0.062;" b!"null" c₁ ∧ JustReplies [] c₁ none b!"f get;" b!"0.062" :=
  C78_float (n := b!"f") (n' := b!"f") (v := .fin false (2 ^ 1070)) (w := .fin false (2 ^ 1070)) sixteenths_reachable (by unfold Holds; kernel_rfl) (by unfold Holds; kernel_rfl) sixteenth
    (reads (by decide +kernel)) sixteenths_get (reads (by decide +kernel)) (reads (by decide +kernel))

/-- The value is indeed another one. -/
example : (atof b!"0.062").toF32 ≠ .fin false (2 ^ 1070) := by decide +kernel

theorem sixteenths_v : Holds sixteenths b!"v" (.vector b!"Float" [.float (.fin false (2 ^ 1070)), .float (.fin false (3 * 2 ^ 1073))]) := by
  unfold Holds; kernel_rfl

theorem sixteenths_w : Holds sixteenths b!"w" (.vector b!"Float" []) := by unfold Holds; kernel_rfl

theorem sixteenths_v0 [StdSort] : JustReplies [] sixteenths none b!"v atIndex: 0;" b!"0.062" := ⟨sixteenths, by unfold Replies; kernel_rfl, rfl, rfl⟩
theorem sixteenths_v1 [StdSort] : JustReplies [] sixteenths none b!"v atIndex: 1;" b!"1.500" := ⟨sixteenths, by unfold Replies; kernel_rfl, rfl, rfl⟩

example [StdSort] : ∃ c', Accepted [] none sixteenths [b!"w pushBack: 0.062;", b!"w pushBack: 1.500;"] c' ∧
    ∀ q q' r, Statement q b!"v" b!"get" [] → Statement q' b!"w" b!"get" [] → JustReplies [] sixteenths none q r → JustReplies [] c' none q' r := by
  have h0 := sixteenths_v
  have h1 := sixteenth
  have h2 := demo_f
  generalize Fl.fin false (2 ^ 1070) = x at h0 h1
  generalize Fl.fin false (3 * 2 ^ 1073) = y at h0 h2
  refine C78_vector (rs := [b!"0.062", b!"1.500"]) sixteenths_reachable h0 sixteenths_w ?_ rfl (by simp) ?_
  · intro z hz
    rcases List.mem_cons.1 hz with hz | hz
    · cases hz; exact ⟨_, h1⟩
    · rcases List.mem_cons.1 hz with hz | hz
      · cases hz; exact ⟨_, h2⟩
      · cases hz
  · intro i hi
    match i, hi with
    | 0, _ => exact sixteenths_v0
    | 1, _ => exact sixteenths_v1

end Knuckle.Props

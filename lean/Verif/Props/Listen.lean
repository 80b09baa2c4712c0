/-
C110: where the server listens.
-/
import Verif.Model.Listen
import Verif.Props.Main

namespace Knuckle.Props

open Spec

section
variable {A : Type} {opens : Str → Bool} {net : Network A} {cl : Option StartOptions} {o : StartOptions} {s s' : Server} {a a' : A} {n n' : Nat} {p : Int}

/-- The port is the given number modulo 2^16. -/
theorem portNumber_spec (p : Int) (n : Nat) : portNumber p = n ↔ n < 65536 ∧ (65536 : Int) ∣ p - n := by
  unfold portNumber
  omega

theorem launch_serving : launch opens net cl = .serving s a n ↔ ∃ o p, cl = some o ∧ o.help = false ∧ o.port = some p ∧
    net.parses (o.bind.getD b!"0.0.0.0") = some a ∧ net.free a n = true ∧ portNumber p = n ∧
    s = Server.init (o.password.getD []) (Ctx.init (o.floatPrecision.getD 3) (o.floatComparisonTolerance.getD defaultTolerance)
      (o.logfile.getD [] != [] && opens (o.logfile.getD [])) o.quiet) := by
  cases cl with
  | none => simp [launch]
  | some o =>
    simp only [launch, Option.some.injEq, exists_and_left, exists_eq_left']
    cases h1 : o.help with
    | true => simp
    | false =>
      cases h2 : o.port with
      | none => simp
      | some p =>
        cases h3 : net.parses (o.bind.getD b!"0.0.0.0") with
        | none => simp
        | some b =>
          simp only [Bool.false_eq_true, if_false, Option.some.injEq, exists_eq_left', true_and]
          constructor
          · intro h
            split at h
            · rename_i hf
              injection h with e1 e2 e3
              subst e1 e2 e3
              exact ⟨rfl, hf, rfl, rfl⟩
            · cases h
          · rintro ⟨rfl, hf, rfl, rfl⟩
            rw [if_pos hf]

/-- C110: the server listens at an address and a port exactly if help is not asked for, a port is given, the address is that of `--bind`, or `0.0.0.0` (all
interfaces) if there is none, the port is the given number modulo 65536, and both are free. -/
theorem C110_where : (∃ s, launch opens net cl = .serving s a n) ↔ ∃ o p, cl = some o ∧ o.help = false ∧ o.port = some p ∧
    ((∃ b, o.bind = some b ∧ net.parses b = some a) ∨ (o.bind = none ∧ net.parses b!"0.0.0.0" = some a)) ∧
    net.free a n = true ∧ n < 65536 ∧ (65536 : Int) ∣ p - n := by
  constructor
  · rintro ⟨s, h⟩
    obtain ⟨o, p, h1, h2, h3, h4, h5, h6, _⟩ := launch_serving.1 h
    refine ⟨o, p, h1, h2, h3, ?_, h5, (portNumber_spec p n).1 h6⟩
    cases hb : o.bind with
    | none => rw [hb] at h4; exact .inr ⟨rfl, h4⟩
    | some b => rw [hb] at h4; exact .inl ⟨b, rfl, h4⟩
  · rintro ⟨o, p, h1, h2, h3, h4, h5, h6⟩
    refine ⟨_, launch_serving.2 ⟨o, p, h1, h2, h3, ?_, h5, (portNumber_spec p n).2 h6, rfl⟩⟩
    rcases h4 with ⟨b, hb, h⟩ | ⟨hb, h⟩ <;> rw [hb] <;> exact h

/-- C110: a number that is a port is the port on which the server listens. -/
theorem C110_port (h : launch opens net (some o) = .serving s a n) (hp : o.port = some p) (h0 : 0 ≤ p) (h1 : p < 65536) : (n : Int) = p := by
  obtain ⟨o', p', e, _, h3, _, _, h6, _⟩ := launch_serving.1 h
  cases e
  rw [hp] at h3; cases h3
  have := (portNumber_spec p n).1 h6
  omega

/-- C110: a number that is no port is not refused: the server listens on another port, the same as if that had been given. -/
theorem C110_no_port (hb : ∀ a n, net.free a n = true) (ha : net.parses (o.bind.getD b!"0.0.0.0") = some a) (hh : o.help = false)
    (hp : o.port = some p) (h : ¬ (0 ≤ p ∧ p < 65536)) :
    ∃ s n, launch opens net (some o) = .serving s a n ∧ (n : Int) ≠ p ∧
      launch opens net (some { o with port := some (n : Int) }) = .serving s a n := by
  have h1 := (portNumber_spec p _).1 rfl
  refine ⟨_, portNumber p, launch_serving.2 ⟨o, p, rfl, hh, hp, ha, hb _ _, rfl, rfl⟩, by omega, ?_⟩
  refine launch_serving.2 ⟨_, (portNumber p : Int), rfl, hh, rfl, ha, hb _ _, (portNumber_spec _ _).2 ⟨h1.1, by simp⟩, rfl⟩

/-- C110: 65536 (and every multiple) asks, like 0, for any port. -/
theorem C110_any_port (h : launch opens net (some o) = .serving s a n) (hp : o.port = some p) : n = 0 ↔ (65536 : Int) ∣ p := by
  obtain ⟨o', p', e, _, h3, _, _, h6, _⟩ := launch_serving.1 h
  cases e
  rw [hp] at h3; cases h3
  have := (portNumber_spec p n).1 h6
  omega

/-- C110: an address that is none ends the process, whatever the port. -/
theorem C110_no_address (ha : net.parses (o.bind.getD b!"0.0.0.0") = none) (hh : o.help = false) (hp : o.port = some p) :
    launch opens net (some o) = .aborted := by
  simp only [launch, hh, hp, ha, Bool.false_eq_true, if_false]

/-- C110: address and port influence nothing else: the server is the one of the other options. -/
theorem C110_same_service {b b' : Option Str} {q q' : Option Int} {net' : Network A}
    (h : launch opens net (some { o with bind := b, port := q }) = .serving s a n)
    (h' : launch opens net' (some { o with bind := b', port := q' }) = .serving s' a' n') : s = s' := by
  obtain ⟨o1, p1, e1, _, _, _, _, _, rfl⟩ := launch_serving.1 h
  obtain ⟨o2, p2, e2, _, _, _, _, _, rfl⟩ := launch_serving.1 h'
  cases e1; cases e2
  rfl

/-- C110: this is the start of C63, where it only matters whether address and port can be bound; so everything proved about servers that `main` starts holds. -/
theorem C110_main : (∃ a n, launch opens net (some o) = .serving s a n) ↔
    main opens (decide (∃ p, o.port = some p ∧ ∃ a, net.parses (o.bind.getD b!"0.0.0.0") = some a ∧ net.free a (portNumber p) = true))
      (some o.toCommandLine) = .serving s := by
  constructor
  · rintro ⟨a, n, h⟩
    obtain ⟨o', p, e, h1, h2, h3, h4, rfl, rfl⟩ := launch_serving.1 h
    cases e
    simp only [main, h1, h2, Bool.false_eq_true, if_false, Option.isNone_some]
    rw [decide_eq_true ⟨p, rfl, a, h3, h4⟩]
    rfl
  · intro h
    obtain ⟨hb, o', p, e, h1, h2⟩ := (C63_when_it_serves (some o.toCommandLine)).1 ⟨s, h⟩
    cases e
    obtain ⟨p', h3, a, h4, h5⟩ := of_decide_eq_true hb
    exact ⟨a, portNumber p', launch_serving.2 ⟨o, p', rfl, h1, h3, h4, h5, rfl, main_serving h⟩⟩

end

/-! ### Cases -/

/-- A machine with two addresses, on which port 80 is taken. -/
def twoAddresses : Network Str :=
  ⟨fun b => if b = b!"0.0.0.0" ∨ b = b!"127.0.0.1" then some b else none, fun _ n => n ≠ 80⟩

def onPort (p : Int) (b : Option Str) : StartOptions := ⟨⟨false, true, some p, none, none, none, none⟩, b⟩

/-- `--port 8001 --bind 127.0.0.1`, the example of the manual. -/
example : ∃ s, launch (fun _ => true) twoAddresses (some (onPort 8001 (some b!"127.0.0.1"))) = .serving s b!"127.0.0.1" 8001 :=
  C110_where.2 ⟨_, _, rfl, rfl, rfl, .inl ⟨_, rfl, by decide⟩, by decide, by decide, by decide⟩

/-- `--port 73537` (a digit too many for 7353) and `--port -57535` listen on port 8001, on all interfaces. -/
example : (∃ s, launch (fun _ => true) twoAddresses (some (onPort 73537 none)) = .serving s b!"0.0.0.0" 8001) ∧
    ∃ s, launch (fun _ => true) twoAddresses (some (onPort (-57535) none)) = .serving s b!"0.0.0.0" 8001 :=
  ⟨C110_where.2 ⟨_, _, rfl, rfl, rfl, .inr ⟨rfl, by decide⟩, by decide, by decide, by decide⟩,
    C110_where.2 ⟨_, _, rfl, rfl, rfl, .inr ⟨rfl, by decide⟩, by decide, by decide, by decide⟩⟩

/-- Port 65616 is taken, because port 80 is. -/
example : ¬ ∃ s, launch (fun _ => true) twoAddresses (some (onPort 65616 none)) = .serving s b!"0.0.0.0" 80 := by
  rw [C110_where]; rintro ⟨_, _, _, _, _, _, h, _⟩; exact absurd h (by decide)

example := C110_port (p := 8001) (C110_where.2 ⟨onPort 8001 none, _, rfl, rfl, rfl, .inr ⟨rfl, rfl⟩, rfl, by decide, by decide⟩ :
  ∃ s, launch (fun _ => true) twoAddresses (some (onPort 8001 none)) = .serving s b!"0.0.0.0" 8001).choose_spec rfl (by decide) (by decide)
example := C110_any_port (p := 65536) (C110_where.2 ⟨onPort 65536 none, _, rfl, rfl, rfl, .inr ⟨rfl, rfl⟩, rfl, by decide, by decide⟩ :
  ∃ s, launch (fun _ => true) twoAddresses (some (onPort 65536 none)) = .serving s b!"0.0.0.0" 0).choose_spec rfl
example := C110_no_port (opens := fun _ => true) (net := ⟨some, fun _ _ => true⟩) (o := onPort (-1) none) (a := b!"0.0.0.0") (fun _ _ => rfl) rfl rfl rfl (by decide)
example : launch (fun _ => true) twoAddresses (some (onPort 8001 (some b!"localhost"))) = .aborted := C110_no_address (by decide) rfl rfl
example {s s' : Server} (h : launch (fun _ => true) twoAddresses (some (onPort 8001 none)) = .serving s b!"0.0.0.0" 8001)
    (h' : launch (fun _ => true) twoAddresses (some (onPort 8002 (some b!"127.0.0.1"))) = .serving s' b!"127.0.0.1" 8002) : s = s' :=
  C110_same_service (o := onPort 8001 none) (b := none) (q := some 8001) (b' := some b!"127.0.0.1") (q' := some 8002) h h'

end Knuckle.Props

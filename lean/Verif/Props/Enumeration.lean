import Verif.Proofs.Enumeration
import Verif.Proofs.Examples
/-! The order in which maps are enumerated. -/

namespace Pica.Props
open Spec Enumeration

/-- C115: what a command does is the same in states that are the same up to the order of the entries of maps. -/
theorem C115_step {p p' q : Pica} {env : Env} {c : Command} {out : List Out} (hp : p.Reachable) (hq : q.Reachable)
    (h : SameState p q) (hs : p.step env c = .ok (p', out)) :
    ∃ q' out', q.step env c = .ok (q', out') ∧ SameState p' q' ∧ SameOut out out' :=
  step_same (Pica.reachable_inv hp) (Pica.reachable_inv hq) h hs

/-- C115: a command panics in the one exactly if it panics in the other. -/
theorem C115_panic {p q : Pica} (env : Env) (c : Command) (hp : p.Reachable) (hq : q.Reachable) (h : SameState p q) :
    (∃ x, p.step env c = .error x) ↔ ∃ x, q.step env c = .error x := by
  have key : ∀ {p q : Pica}, p.Reachable → q.Reachable → SameState p q → (∃ x, p.step env c = .error x) →
      ∃ x, q.step env c = .error x := by
    rintro p q hp hq h ⟨x, hx⟩
    cases e : q.step env c with
    | error y => exact ⟨y, rfl⟩
    | ok y =>
      obtain ⟨q', out⟩ := y
      obtain ⟨_, _, e', -⟩ := C115_step hq hp h.symm e
      rw [hx] at e'
      cases e'
  exact ⟨key hp hq h, key hq hp h.symm⟩

/-- C115: over any history, with the maps enumerated in any order before any command, each command yields the same. -/
theorem C115_history {p p' q q' : Pica} {tr ur : List Pica.Event} (hp : p.Reachable) (hq : q.Reachable) (h : SameState p q)
    (hr : Pica.Run p tr p') (hu : Pica.Run q ur q')
    (he : tr.map (fun ev => (ev.env, ev.command)) = ur.map fun ev => (ev.env, ev.command)) :
    List.Forall₂ (fun a b => SameOut a.out b.out) tr ur ∧ SameState p' q' :=
  run_same (Pica.reachable_inv hp) (Pica.reachable_inv hq) h hr hu he

/-- C115: two emulators that are given the same commands yield the same. -/
theorem C115_deterministic {p q : Pica} {tr ur : List Pica.Event} (hr : Pica.Run .new tr p) (hu : Pica.Run .new ur q)
    (he : tr.map (fun ev => (ev.env, ev.command)) = ur.map fun ev => (ev.env, ev.command)) :
    List.Forall₂ (fun a b => SameOut a.out b.out) tr ur ∧ SameState p q :=
  C115_history ⟨[], .nil⟩ ⟨[], .nil⟩ (.refl _) hr hu he

namespace Shuffled
open Ex

/-- Two controlees that range with one controller. -/
def three : List (Env × Command) :=
  twoActive ++ [(env, .connect), pkt 3 reset, pkt 3 (sessionInit 7 1), pkt 3 (setApp 7 8 controlee), pktT 43 3 (start 7)]

theorem three_ok : (play Pica.new three).isOk = true := by decide +kernel

/-- The same, with the devices the other way round. -/
def turned : Pica := { after three with devices := (after three).devices.reverse }

theorem turned_reorder : Pica.Reorder (after three) turned := .devices (List.reverse_perm _)

/-- The distances in the rounds of a host. -/
def distances (h : Nat) (out : List Out) : List (List UInt16) :=
  (sentTo h out).filterMap fun
    | .ntf (.sessionInfo _ _ _ _ ms _) => some (ms.map (·.distance))
    | _ => none

end Shuffled

open Ex Shuffled in
/-- C115, example: three hosts whose devices are enumerated in either order. -/
example : (after three).Reachable ∧ turned.Reachable ∧ SameState (after three) turned ∧
    (after three).devices.keys ≠ turned.devices.keys ∧ ((after three).step env (.ranging 0 7)).isOk = true ∧
    ((after three).step env (.ranging 0 8)).isOk = false := by
  refine ⟨after_reachable _ three_ok, ?_, reorder_same (Pica.reachable_inv (after_reachable _ three_ok)) turned_reorder, ?_⟩
  · exact ⟨_, .reorder (after_run _ three_ok) turned_reorder⟩
  · decide +kernel

open Ex Shuffled in
/-- C115, example: a history of 18 commands, with and without a change of the order in the end. -/
example : Pica.Run .new (trace three) (after three) ∧ Pica.Run .new (trace three) turned ∧ (trace three).length = 18 ∧
    after three ≠ turned :=
  ⟨after_run _ three_ok, .reorder (after_run _ three_ok) turned_reorder, by decide +kernel, by decide +kernel⟩

open Ex Shuffled in
/-- C115: the order of the measurements of a round does depend on it. -/
theorem C115_shuffled : ∃ (p p' q' : Pica) (o o' : List Out), p.Reachable ∧ (∃ q, Pica.Reorder p q ∧
    p.step env (.ranging 0 7) = .ok (p', o) ∧ q.step env (.ranging 0 7) = .ok (q', o')) ∧ sentTo 0 o ≠ sentTo 0 o' := by
  obtain ⟨⟨p', o⟩, h, hf⟩ := exists_ok (x := (after three).step env (.ranging 0 7))
    (f := fun y => distances 0 y.2) (b := [[102, 101, 103]]) (by decide +kernel)
  obtain ⟨⟨q', o'⟩, k, kf⟩ := exists_ok (x := turned.step env (.ranging 0 7))
    (f := fun y => distances 0 y.2) (b := [[102, 103, 101]]) (by decide +kernel)
  refine ⟨_, _, _, _, _, after_reachable _ three_ok, ⟨_, turned_reorder, h, k⟩, fun e => ?_⟩
  dsimp only at hf kf
  unfold distances at hf kf
  rw [e, kf] at hf
  revert hf
  decide

end Pica.Props

import Verif.Proofs.Pica
/-! Concrete histories used as witnesses and examples. -/

set_option linter.dupNamespace false

namespace Pica
namespace Ex

/-- An environment in which every estimate succeeds and every channel is open. -/
def env : Env where
  estimate l r := some ⟨UInt16.ofNat (100 + 10 * l + r), 5, 7⟩
  alive _ := true
  tid := 40

/-- Play a list of commands. -/
def play (p : Pica) : List (Env × Command) → Except Panic (Pica × List Pica.Event)
  | [] => .ok (p, [])
  | (e, c) :: cs => do
    let (p, out) ← p.step e c
    let (q, tr) ← play p cs
    .ok (q, ⟨e, c, out⟩ :: tr)

theorem run_cons {p q r : Pica} {e : Env} {c : Command} {out : List Out} {tr : List Pica.Event}
    (hs : p.step e c = .ok (q, out)) (h : Pica.Run q tr r) : Pica.Run p (⟨e, c, out⟩ :: tr) r := by
  induction h with
  | nil => exact .cmd (tr := []) .nil hs
  | cmd _ hs' ih => exact .cmd ih hs'
  | reorder _ hr ih => exact .reorder ih hr

theorem play_run {cs : List (Env × Command)} {p q : Pica} {tr : List Pica.Event} (h : play p cs = .ok (q, tr)) :
    Pica.Run p tr q := by
  induction cs generalizing p q tr with
  | nil => cases h; exact .nil
  | cons c cs ih =>
    obtain ⟨e, c⟩ := c
    unfold play at h
    cases hs : p.step e c with
    | error x => rw [hs] at h; cases h
    | ok y =>
      obtain ⟨p₁, out⟩ := y
      rw [hs] at h
      simp only [bind, Except.bind] at h
      cases hp : play p₁ cs with
      | error x => rw [hp] at h; cases h
      | ok z =>
        obtain ⟨q₁, tr₁⟩ := z
        rw [hp] at h
        cases h
        exact run_cons hs (ih hp)

/-- The state reached by a list of commands that does not panic. -/
def after (cs : List (Env × Command)) : Pica := ((play Pica.new cs).toOption.map Prod.fst).getD Pica.new

/-- The history of a list of commands that does not panic. -/
def trace (cs : List (Env × Command)) : List Pica.Event := ((play Pica.new cs).toOption.map Prod.snd).getD []

theorem after_run (cs : List (Env × Command)) (h : (play Pica.new cs).isOk = true) :
    Pica.Run Pica.new (trace cs) (after cs) := by
  unfold after trace
  cases hp : play Pica.new cs with
  | error x => rw [hp] at h; cases h
  | ok y => exact play_run hp

theorem after_reachable (cs : List (Env × Command)) (h : (play Pica.new cs).isOk = true) :
    Pica.Reachable (after cs) := ⟨_, after_run cs h⟩

/-- The panic of a step, if any. -/
def panics {α : Type} : Except Panic α → Option Panic
  | .error x => some x
  | .ok _ => none

theorem panics_eq {α : Type} {x : Except Panic α} {e : Panic} (h : panics x = some e) : x = .error e := by
  cases x with
  | error => cases h; rfl
  | ok => cases h

theorem exists_ok {α β : Type} {x : Except Panic α} {f : α → β} {b : β} (h : x.toOption.map f = some b) :
    ∃ a, x = .ok a ∧ f a = b := by
  cases x with
  | error => cases h
  | ok a => cases h; exact ⟨a, rfl, rfl⟩

theorem find {p : Pica} {h : Nat} {sid : UInt32} {β : Type} {f : Device → Session → β} {b : β}
    (hf : ((p.devices.get? h).bind fun d => (d.sessions.get? sid).map (f d)) = some b) :
    ∃ d s, p.devices.get? h = some d ∧ d.sessions.get? sid = some s ∧ f d s = b := by
  rw [Option.bind_eq_some_iff] at hf
  obtain ⟨d, hd, hf⟩ := hf
  rw [Option.map_eq_some_iff] at hf
  obtain ⟨s, hs, hf⟩ := hf
  exact ⟨d, s, hd, hs, hf⟩

/-! ### Packets, as a host sends them -/

def cmd (gid oid : UInt8) (payload : Bytes) : Bytes := (0x20 ||| gid) :: oid :: 0 :: UInt8.ofNat payload.length :: payload
def reset : Bytes := cmd 0 0 [0]
def sessionInit (sid ty : UInt8) : Bytes := cmd 1 0 [sid, 0, 0, 0, ty]
def sessionDeinit (sid : UInt8) : Bytes := cmd 1 1 [sid, 0, 0, 0]
def setApp (sid : UInt8) (n : UInt8) (tlvs : Bytes) : Bytes := cmd 1 3 ([sid, 0, 0, 0, n] ++ tlvs)
def start (sid : UInt8) : Bytes := cmd 2 0 [sid, 0, 0, 0]
def stop (sid : UInt8) : Bytes := cmd 2 1 [sid, 0, 0, 0]
/-- REMOVE of one controlee. -/
def removeOne (sid a b : UInt8) : Bytes := cmd 1 7 [sid, 0, 0, 0, 1, 1, a, b, 0, 0, 0, 0]
/-- ADD of one controlee. -/
def addOne (sid a b : UInt8) : Bytes := cmd 1 7 [sid, 0, 0, 0, 0, 1, a, b, 0, 0, 0, 0]

/-- A controller of a one-to-many session with address 00:a0 and controlee 00:b1, initiator. -/
def controller : Bytes :=
  [0x00, 1, 1, 0x01, 1, 2, 0x03, 1, 1, 0x05, 1, 1, 0x06, 2, 0x00, 0xa0, 0x07, 2, 0x00, 0xb1, 0x11, 1, 1, 0x22, 1, 1]
/-- The controlee 00:b1, responder. -/
def controlee : Bytes :=
  [0x00, 1, 0, 0x01, 1, 2, 0x03, 1, 1, 0x05, 1, 1, 0x06, 2, 0x00, 0xb1, 0x07, 2, 0x00, 0xa0, 0x11, 1, 0, 0x22, 1, 1]

def pkt (h : Nat) (p : Bytes) : Env × Command := (env, .uciPacket h p)
def pktT (t h : Nat) (p : Bytes) : Env × Command := ({ env with tid := t }, .uciPacket h p)

/-- One device with an ACTIVE controller session 7. -/
def oneActive : List (Env × Command) :=
  [(env, .connect), pkt 0 reset, pkt 0 (sessionInit 7 1), pkt 0 (setApp 7 8 controller), pktT 41 0 (start 7)]

/-- Two devices ranging with each other in session 7, an anchor and a further idle session. -/
def twoActive : List (Env × Command) :=
  oneActive ++ [(env, .connect), pkt 1 reset, pkt 1 (sessionInit 7 1), pkt 1 (setApp 7 8 controlee), pktT 42 1 (start 7),
    pkt 0 (sessionInit 9 0), pkt 0 (setApp 9 8 controller), (env, .createAnchor (.short ⟨[0, 0xb1], rfl⟩))]

theorem twoActive_ok : (play Pica.new twoActive).isOk = true := by decide +kernel
theorem oneActive_ok : (play Pica.new oneActive).isOk = true := by decide +kernel

end Ex
end Pica

import Verif.Spec.Schedule
import Verif.Proofs.SystemExamples
import Verif.Proofs.Command
/-! Concrete careful schedules. -/

namespace Pica
namespace Ex
open Spec Pica.System

/-- The command in a packet. -/
def readCmd (bytes : Bytes) : Option Cmd :=
  match ControlPacket.decode bytes with
  | none => none
  | some p =>
    if p.mt = .command then
      match Cmd.parse p.gid p.payload with
      | .ok o => o
      | .error _ => none
    else none

theorem isCmd_read {bytes : Bytes} {c : Cmd} : IsCmd bytes c ↔ readCmd bytes = some c := by
  rw [isCmd_iff]
  unfold readCmd
  constructor
  · rintro ⟨p, h1, h2, h3⟩
    simp only [h1, h2, if_true, h3]
  · intro h
    split at h
    · cases h
    · rename_i p h1
      split at h
      · rename_i h2
        split at h
        · rename_i o h3
          exact ⟨p, h1, h2, by rw [h3, h]⟩
        · cases h
      · cases h

def mildB : Cmd → Bool
  | .sessionInit _ ty => ty = .firaRangingSession ∨ ty = .firaRangingAndInBandDataSession
  | .sessionSetAppConfig _ l => l.all fun t => (t.cfgId.code != 0x26 || t.v == [0]) &&
      (t.cfgId.code != 0x05 || match t.v with
        | [n] => decide (n.toNat ≤ 8)
        | _ => true)
  | _ => true

theorem mild_of {c : Cmd} (h : mildB c = true) : Mild c := by
  cases c with
  | sessionInit => simpa [mildB, Mild] using h
  | sessionSetAppConfig sid l =>
    intro t ht
    have := List.all_eq_true.mp h t ht
    simp only [Bool.and_eq_true, Bool.or_eq_true, bne_iff_ne, beq_iff_eq] at this
    refine ⟨fun h0 => this.1.resolve_left (fun hn => hn h0), fun h0 n hn => ?_⟩
    have h2 := this.2.resolve_left (fun hn => hn h0)
    rw [hn] at h2
    exact of_decide_eq_true h2
  | _ => trivial

def unsettlingB : Cmd → Bool
  | .coreDeviceReset _ | .coreGetDeviceInfo | .coreSetConfig _ | .sessionDeinit _ => true
  | .sessionUpdateMulticast _ a q => a ≠ .addControlee ∨ q = [0]
  | _ => false

theorem unsettling_of {c : Cmd} (h : Unsettling c) : unsettlingB c = true := by
  cases c <;> first
    | rfl
    | exact h.elim
    | (simpa [unsettlingB, Unsettling] using h)

def settledB (s : System) (h : Nat) : Bool :=
  (s.pica.devices.get? h).all (fun d => decide (d.state = .deviceStateReady)) && s.timers.all (fun t => decide (t.device ≠ h)) &&
  s.queue.all fun
    | .ranging k _ => decide (k ≠ h)
    | _ => true

theorem settled_of {s : System} {h : Nat} (hb : settledB s h = true) : Settled s h := by
  unfold settledB at hb
  simp only [Bool.and_eq_true, List.all_eq_true] at hb
  obtain ⟨⟨h1, h2⟩, h3⟩ := hb
  refine ⟨fun d hd => ?_, fun t ht => of_decide_eq_true (h2 t ht), fun sid hq => ?_⟩
  · rw [hd] at h1; exact of_decide_eq_true h1
  · exact of_decide_eq_true (h3 _ hq) rfl

def startsB (h : Nat) : Command → Bool
  | .uciPacket k bytes => decide (k = h) && match readCmd bytes with
    | some (.sessionStart _) => true
    | _ => false
  | _ => false

theorem starts_of {h : Nat} {c : Command} (hs : Starts h c) : startsB h c = true := by
  obtain ⟨bytes, sid, rfl, hc⟩ := hs
  simp [startsB, isCmd_read.mp hc]

def takesB (s : System) : Command → Bool
  | .uciPacket h bytes => (readCmd bytes).all fun x => !unsettlingB x || settledB s h
  | .connect => decide (s.pica.devices.length < 247)
  | _ => true

def prudentB (s : System) : Label → Bool
  | .packet _ bytes => (readCmd bytes).any mildB
  | .closes h | .fails h => settledB s h && s.queue.all fun c => !startsB h c
  | .process ev => takesB s ev.command
  | .panics c _ => takesB s c
  | _ => true

theorem prudent_of {s : System} {l : Label} (hb : prudentB s l = true) : Prudent s l := by
  have htake : ∀ c, dequeued l = some c → takesB s c = true := by
    intro c hc
    cases l <;> cases hc <;> exact hb
  refine ⟨?_, ?_, ?_, fun hc => of_decide_eq_true (htake _ hc)⟩
  · rintro h bytes rfl
    change (readCmd bytes).any mildB = true at hb
    cases hx : readCmd bytes with
    | none => rw [hx] at hb; cases hb
    | some x => rw [hx] at hb; exact ⟨x, isCmd_read.mpr hx, mild_of hb⟩
  · intro h hl
    have hb' : (settledB s h && s.queue.all fun c => !startsB h c) = true := by
      rcases hl with rfl | rfl <;> exact hb
    rw [Bool.and_eq_true, List.all_eq_true] at hb'
    refine ⟨settled_of hb'.1, fun c hc hs => ?_⟩
    have := hb'.2 c hc
    rw [starts_of hs] at this
    cases this
  · intro h bytes x hc hx hu
    have := htake _ hc
    change (readCmd bytes).all _ = true at this
    rw [isCmd_read.mp hx] at this
    change (!unsettlingB x || settledB s h) = true at this
    rw [unsettling_of hu] at this
    exact settled_of this

/-- Play a list of careful steps. -/
def careful (s : System) (ls : List Label) : List Act → Option (List Label × System)
  | [] => some (ls, s)
  | a :: as =>
    if s.stopped then none else
    match act s a with
    | some (l, u) => if prudentB s l then careful u (ls ++ [l]) as else none
    | none => none

theorem careful_of {as : List Act} {s u : System} {ls ls' : List Label} (hr : Careful ls s)
    (h : careful s ls as = some (ls', u)) : Careful ls' u := by
  induction as generalizing s ls with
  | nil => cases h; exact hr
  | cons a as ih =>
    unfold careful at h
    split at h
    · cases h
    · rename_i hst
      cases ha : act s a with
      | none => rw [ha] at h; cases h
      | some z =>
        obtain ⟨l, t⟩ := z
        rw [ha] at h
        dsimp only at h
        split at h
        · rename_i hp
          exact ih (.step hr (by simpa using hst) (act_step ha) (prudent_of hp)) h
        · cases h

/-- What can be computed of a careful schedule holds of it. -/
theorem exists_careful {as : List Act} {f : List Label → System → Bool}
    (h : (careful .new [] as).any (fun z => f z.1 z.2) = true) : ∃ ls s, Careful ls s ∧ f ls s = true := by
  cases hx : careful .new [] as with
  | none => rw [hx] at h; cases h
  | some z => obtain ⟨ls, s⟩ := z; rw [hx] at h; exact ⟨ls, s, careful_of .nil hx, h⟩

end Ex
end Pica

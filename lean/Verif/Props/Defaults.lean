import Verif.Props.Session
import Verif.Props.Params
import Verif.Proofs.Reasons
import Verif.Spec.Defaults
/-! C68: the parameters of a new session. C69: the reasons in session status notifications. -/

set_option linter.dupNamespace false

namespace Pica.Props
open Spec SessionState

/-! ### C68 -/

/-- C68: the values of all 256 parameter identifiers before anything is set. -/
theorem C68_values (i : UInt8) : View.of AppConfig.default i = (defaults.find? (fun e => e.1 = i)).map Prod.snd :=
  forall_u8 (P := fun i => View.of AppConfig.default i = (defaults.find? (fun e => e.1 = i)).map Prod.snd)
    (by decide +kernel) i

theorem blank_fresh (sid : UInt32) (ty : SessionType) (h : Nat) (st : SessionState) : Fresh sid ty (blank sid ty h st) :=
  ⟨rfl, rfl, C68_values, rfl, rfl, rfl⟩

/-- C68: SESSION_INIT answered with OK or SESSION_DUPLICATE leaves a session nobody has configured. -/
theorem C68_init (p : Pica) (hp : p.Reachable) (env : Env) (h : Nat) (d : Device) (sid : UInt32) (ty : SessionType)
    (hd : p.devices.get? h = some d) (hr : d.isReset = true) (hl : d.sessions.length < 255) :
    ∃ s d' r e, Fresh sid ty s ∧ d'.sessions.get? sid = some s ∧
      (∀ x, x ≠ sid → d'.sessions.get? x = d.sessions.get? x) ∧
      r = (if d.sessions.get? sid = none then Status.ok else Status.errorSessionDuplicate) ∧
      Answers p env h (.sessionInit sid ty) (.sessionInit r) d' e := by
  obtain ⟨-, h1, h2⟩ := C28_partial p hp env h d sid ty hd hr
  cases hs : d.sessions.get? sid with
  | none =>
    refine ⟨_, _, _, _, blank_fresh sid ty h _, AMap.get?_insert_self .., fun x hx => AMap.get?_insert_of_ne hx, ?_, h1 hl hs⟩
    rfl
  | some s =>
    obtain ⟨e, h2, -⟩ := h2 hl s hs
    refine ⟨_, _, _, _, blank_fresh sid ty h _, AMap.get?_insert_self .., fun x hx => AMap.get?_insert_of_ne hx, ?_, h2⟩
    rfl

/-- C68: every session that appears was made by SESSION_INIT, and nobody has configured it. -/
theorem C68_only (p p' : Pica) (hp : p.Reachable) (env : Env) (c : Command) (out : List Out)
    (hst : p.step env c = .ok (p', out)) (h : Nat) (d' : Device) (hd' : p'.devices.get? h = some d') (sid : UInt32)
    (s' : Session) (hs' : d'.sessions.get? sid = some s')
    (hn : ∀ d, p.devices.get? h = some d → d.sessions.get? sid = none) :
    ∃ bytes ty, c = .uciPacket h bytes ∧ IsCmd bytes (.sessionInit sid ty) ∧ Fresh sid ty s' ∧
      s'.state = sessionStateInit ∧ Spec.sentTo h out = [.rsp (.sessionInit .ok)] := by
  rcases C56_origin p p' env c out hst h d' hd' sid s' hs' with ⟨d, s, h1, h2, -⟩ | ⟨bytes, rfl, ⟨⟨ty, hc⟩, -⟩ | ⟨d, s, h1, h2, -⟩⟩
  · rw [hn d h1] at h2; cases h2
  · refine ⟨bytes, ty, rfl, hc, ?_⟩
    cases hd : p.devices.get? h with
    | none =>
      rw [uci_absent hd] at hst
      cases hst
      rw [hd] at hd'
      cases hd'
    | some d =>
      have hs := hn d hd
      have hsame : ∀ {q : Pica} {o : List Out}, .ok (q, o) = (Except.ok (p', out) : Except Panic _) →
          q.devices.get? h = some d → False := by
        intro q o e hq
        cases e
        rw [hq] at hd'
        cases hd'
        rw [hs] at hs'
        cases hs'
      by_cases hr : d.isReset = true
      · obtain ⟨h0, h1, -⟩ := C28_partial p hp env h d sid ty hd hr
        by_cases hl : d.sessions.length < 255
        · have h1 := h1 hl hs bytes hc
          unfold AnswersTo at h1
          rw [h1] at hst
          cases hst
          rw [AMap.get?_insert_self] at hd'
          cases hd'
          rw [AMap.get?_insert_self] at hs'
          cases hs'
          refine ⟨blank_fresh .., rfl, ?_⟩
          simp [Spec.sentTo]
        · have hb := ((Pica.reachable_inv hp).dev h d hd).2.2.2.bound
          have h0 := h0 (by have := (show d.sessions.length ≤ 255 from hb); omega) bytes hc
          unfold AnswersTo at h0
          rw [h0] at hst
          exact (hsame hst (AMap.get?_insert_self ..)).elim
      · rw [uci_step hd] at hst
        cases hx : d.receivePacket env.tid bytes with
        | error x => rw [hx] at hst; cases hst
        | ok z =>
          obtain ⟨d₁, o, e⟩ := z
          rw [hx] at hst
          rcases receive_isCmd hc hx with ⟨rfl, -⟩ | ⟨hrd, -⟩
          · exact (hsame hst (AMap.get?_insert_self ..)).elim
          · rcases hrd with hrd | ⟨_, hrd⟩
            · exact absurd hrd hr
            · cases hrd
  · rw [hn d h1] at h2; cases h2

example : ∃ (p : Pica) (d : Device), p.Reachable ∧ p.devices.get? 0 = some d ∧ d.isReset = true ∧
    d.sessions.length < 255 ∧ d.sessions.get? 7 ≠ none := by
  have k : ((Ex.after Ex.oneActive).devices.get? 0).map (fun d => (d.isReset, decide (d.sessions.length < 255),
      (d.sessions.get? 7).isSome)) = some (true, true, true) := by decide +kernel
  obtain ⟨d, hd, k⟩ := Option.map_eq_some_iff.mp k
  simp only [Prod.mk.injEq, decide_eq_true_eq] at k
  refine ⟨_, d, Ex.after_reachable _ Ex.oneActive_ok, hd, k.1, k.2.1, fun h => ?_⟩
  rw [h] at k
  cases k.2.2

example : ∃ (p p' : Pica) (out : List Out) (d' : Device) (s' : Session), p.Reachable ∧
    p.step Ex.env (.uciPacket 0 (Ex.sessionInit 9 0)) = .ok (p', out) ∧ p'.devices.get? 0 = some d' ∧
    d'.sessions.get? 9 = some s' ∧ ∀ d, p.devices.get? 0 = some d → d.sessions.get? 9 = none := by
  have k0 : ((Ex.after Ex.oneActive).devices.get? 0).map (fun d => (d.sessions.get? 9).isSome) = some false := by
    decide +kernel
  have k : ((Ex.after Ex.oneActive).step Ex.env (.uciPacket 0 (Ex.sessionInit 9 0))).toOption.map (fun x =>
      ((x.1.devices.get? 0).bind (fun d => d.sessions.get? 9)).isSome) = some true := by decide +kernel
  obtain ⟨⟨p', out⟩, h, k⟩ := Ex.exists_ok k
  obtain ⟨s', k⟩ := Option.isSome_iff_exists.mp k
  obtain ⟨d', hd', hs'⟩ := Option.bind_eq_some_iff.mp k
  refine ⟨_, p', out, d', s', Ex.after_reachable _ Ex.oneActive_ok, h, hd', hs', fun d hd => ?_⟩
  rw [hd] at k0
  exact Option.not_isSome_iff_eq_none.mp (by
    have k0 : (d.sessions.get? 9).isSome = false := Option.some.inj k0
    rw [k0]; decide)

/-! ### C69 -/

/-- C69: the reason in every SESSION_STATUS_NTF: 0x05 when a peer stops the session in band, 0x33 when the host removes
its last controlee, and otherwise 0x00. -/
theorem C69 (p p' : Pica) (env : Env) (c : Command) (out : List Out) (h : p.step env c = .ok (p', out))
    (x t : Nat) (id : UInt32) (st : SessionState) (r : UInt8)
    (hm : .effect x (.notify t (.sessionStatus id st r)) ∈ out) : Reason c r :=
  told_step h hm

example : ∃ p' out, (Ex.after Ex.oneActive).step Ex.env (.uciPacket 0 (Ex.removeOne 7 0x00 0xb1)) = .ok (p', out) ∧
    .effect 0 (.notify 1 (.sessionStatus 7 sessionStateIdle 0x33)) ∈ out := by
  have k : ((Ex.after Ex.oneActive).step Ex.env (.uciPacket 0 (Ex.removeOne 7 0x00 0xb1))).toOption.map (fun x =>
      x.2.filterMap fun | .effect 0 (.notify 1 (.sessionStatus i st r)) => some (i, st, r) | _ => none) =
      some [(7, sessionStateIdle, 0x33)] := by decide +kernel
  obtain ⟨⟨p', out⟩, h, k⟩ := Ex.exists_ok k
  refine ⟨p', out, h, ?_⟩
  have hm : ((7 : UInt32), sessionStateIdle, (0x33 : UInt8)) ∈ out.filterMap _ := k ▸ List.mem_singleton.mpr rfl
  obtain ⟨o, ho, hf⟩ := List.mem_filterMap.mp hm
  split at hf
  · cases hf; exact ho
  · cases hf

end Pica.Props

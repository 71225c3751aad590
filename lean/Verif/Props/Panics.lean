import Verif.Proofs.PanicWitness
/-! C101: which panics stop the emulator. -/

namespace Pica.Props
open Spec Pica.System

theorem ends_step {ls : List Label} {s : System} {k : Cause} {x : Panic} (hr : Run .new ls s) (he : EndsIn ls k x) :
    ∃ ls' t c q estimate, Run .new ls' t ∧ ls = ls' ++ [.panics c x] ∧ cause c = k ∧ t.queue = c :: q ∧
      t.pica.step (t.env estimate) c = .error x := by
  obtain ⟨ls', c, rfl, hk⟩ := he
  generalize hl : ls' ++ [Label.panics c x] = l at hr
  cases hr with
  | nil => simp at hl
  | step hr _ hs =>
    obtain ⟨h1, h2⟩ := List.append_inj' hl rfl
    clear hl
    subst h1
    obtain rfl := List.head_eq_of_cons_eq h2
    cases hs with
    | panics hq hx => exact ⟨_, _, c, _, _, hr, rfl, hk, hq, hx⟩

/-- C101: with hosts that send well formed commands, these and no other panics end the event loop; each of them can happen. -/
theorem C101_commands (k : Cause) (x : Panic) :
    (∃ ls s, Run .new ls s ∧ FromStreams ls ∧ (∀ h b, Label.packet h b ∈ ls → ∃ c, IsCmd b c) ∧ EndsIn ls k x) ↔
      (k, x) ∈ knownPanics := by
  constructor
  · rintro ⟨ls, s, hr, -, hc, he⟩
    obtain ⟨ls', t, c, q, est, hr', rfl, rfl, hq, hx⟩ := ends_step hr he
    refine step_only_cmd (pica_reachable ⟨_, hr'⟩) _ c (fun h b hb => ?_) x hx
    subst hb
    exact hc h b (List.mem_append_left _ (System.queue_sent hr' h b (hq ▸ .head _)))
  · intro hm
    by_cases ho : (k, x) = (.round, .overflow)
    · cases ho; exact Ex.overflow_ends
    · obtain ⟨ls, s, hr, h1, h2, h3⟩ := Ex.run_ends true _ (Ex.known_ends _ hm ho)
      exact ⟨ls, s, hr, h1, h2 rfl, h3⟩

/-- C101: with hosts that send anything at all there are two more. -/
theorem C101_any (k : Cause) (x : Panic) :
    (∃ ls s, Run .new ls s ∧ FromStreams ls ∧ EndsIn ls k x) ↔ (k, x) ∈ knownPanics ++ malformedPanics := by
  constructor
  · rintro ⟨ls, s, hr, hf, he⟩
    obtain ⟨ls', t, c, q, est, hr', rfl, rfl, hq, hx⟩ := ends_step hr he
    refine step_only (pica_reachable ⟨_, hr'⟩) _ c (fun h b hb => ?_) x hx
    subst hb
    obtain ⟨stream, hs⟩ := hf h b (List.mem_append_left _ (System.queue_sent hr' h b (hq ▸ .head _)))
    exact message_length hs
  · intro hm
    rcases List.mem_append.mp hm with hm | hm
    · obtain ⟨ls, s, hr, h1, -, h3⟩ := (C101_commands k x).mpr hm
      exact ⟨ls, s, hr, h1, h3⟩
    · obtain ⟨ls, s, hr, h1, -, h3⟩ := Ex.run_ends false _ (Ex.malformed_ends _ hm)
      exact ⟨ls, s, hr, h1, h3⟩

/-- C101: so these assertions and `unwrap`s hold in every schedule. -/
theorem C101_never (x : Panic)
    (hx : x ∈ [Panic.underflow, .index, .noMacAddress, .sessionId, .anchorPresent, .unreachable]) (ls : List Label) (s : System)
    (hr : Run .new ls s) (hf : FromStreams ls) (k : Cause) : ¬EndsIn ls k x := by
  intro he
  have := (C101_any k x).mp ⟨ls, s, hr, hf, he⟩
  have key : ∀ k ∈ [Cause.message, .round, .other],
      ∀ x ∈ [Panic.underflow, .index, .noMacAddress, .sessionId, .anchorPresent, .unreachable],
        (k, x) ∉ knownPanics ++ malformedPanics := by decide
  exact key k (by cases k <;> decide) x hx this

/-- C101: connections, their ends, in-band stops and the web server stop nothing. -/
theorem C101_others (x : Panic) (ls : List Label) (s : System) (hr : Run .new ls s) (hf : FromStreams ls) :
    ¬EndsIn ls .other x := by
  intro he
  have := (C101_any .other x).mp ⟨ls, s, hr, hf, he⟩
  cases x <;> revert this <;> decide

/-- A host whose packets end the event loop, and one whose well formed commands do. -/
example : (∃ ls s, Run .new ls s ∧ FromStreams ls ∧ EndsIn ls .message .parseChild) ∧
    ∃ ls s, Run .new ls s ∧ FromStreams ls ∧ (∀ h b, Label.packet h b ∈ ls → ∃ c, IsCmd b c) ∧ EndsIn ls .round .channelClosed :=
  ⟨(C101_any _ _).mpr (by decide), (C101_commands _ _).mpr (by decide)⟩

end Pica.Props

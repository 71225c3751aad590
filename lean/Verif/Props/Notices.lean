import Verif.Spec.Notices
import Verif.Props.Life
import Verif.Props.System
/-! C75, C76: the delayed notifications of a whole schedule. -/

namespace Pica.Props
open Spec System SessionState

theorem applyAll_ntfs (out : List Out) (s : System) (h : Nat) :
    waiting h (out.foldl apply s) = waiting h s ++ (effectsOf h out).filterMap noticeIn := by
  induction out generalizing s with
  | nil => simp [effectsOf]
  | cons o out ih =>
    rw [List.foldl_cons, ih]
    have e : effectsOf h (o :: out) = effectsOf h [o] ++ effectsOf h out := by
      unfold effectsOf
      rw [← List.filterMap_append]
      rfl
    rw [e, List.filterMap_append, ← List.append_assoc]
    congr 1
    cases o with
    | effect k x =>
      by_cases hk : k = h
      · cases x <;> simp [apply, effectsOf, waiting, noticeIn, hk]
      · cases x <;> simp [apply, effectsOf, waiting, noticeIn, hk]
    | event x => cases x <;> simp [apply, effectsOf, waiting, noticeIn]
    | _ => simp [apply, effectsOf, waiting, noticeIn]

theorem notices_run {ls : List Label} {s : System} (h : Nat) (hr : Run .new ls s) :
    (arrived h ls ++ waiting h s).Perm (scheduled h ls) := by
  generalize hn : System.new = n at hr
  induction hr with
  | nil => subst hn; exact .nil
  | @step t u ls l hr _ hst ih =>
    subst hn
    have ea : arrived h (ls ++ [l]) = arrived h ls ++ arrived h [l] := by unfold arrived; rw [List.filterMap_append]
    have es : scheduled h (ls ++ [l]) = scheduled h ls ++ scheduled h [l] := by
      unfold scheduled processed historyOf
      rw [List.filterMap_append, List.flatMap_append, List.filterMap_append]
    rw [ea, es]
    have same : ∀ {v : System} (l : Label), v.ntfs = t.ntfs → arrived h [l] = [] → scheduled h [l] = [] →
        (arrived h ls ++ arrived h [l] ++ waiting h v).Perm (scheduled h ls ++ scheduled h [l]) := by
      intro v l e1 e2 e3
      rw [e2, e3, List.append_nil, List.append_nil]
      unfold waiting at ih ⊢
      rw [e1]
      exact ih
    cases hst with
    | @notifies k m l' hp =>
      have e3 : scheduled h [Label.notifies k m] = [] := rfl
      rw [e3, List.append_nil]
      refine .trans ?_ ih
      rw [List.append_assoc]
      refine .append_left _ ?_
      have := hp.filterMap fun x : Nat × Ntf => if x.1 = h then some x.2 else none
      refine .trans ?_ this.symm
      unfold arrived waiting
      by_cases hk : k = h
      · simp [hk]
      · simp [hk]
    | @process estimate c q p' out hq _ =>
      rw [applyAll_ntfs]
      have e1 : arrived h [Label.process ⟨t.env estimate, c, out⟩] = [] := rfl
      have e2 : scheduled h [Label.process ⟨t.env estimate, c, out⟩] = (effectsOf h out).filterMap noticeIn := by
        unfold scheduled processed historyOf
        simp
      rw [e1, e2, List.append_nil, ← List.append_assoc]
      exact ih.append_right _
    | _ => exact same _ rfl rfl rfl

/-- C75: in every schedule, the delayed notifications put on the channel to a host and those that still sleep are together
exactly those its device has scheduled, each once. -/
theorem C75_once (ls : List Label) (s : System) (hr : Run .new ls s) (h : Nat) :
    (arrived h ls ++ waiting h s).Perm (scheduled h ls) := notices_run h hr

theorem statusNtfs_eq (sid : UInt32) (es : List Effect) :
    statusNtfs sid es = (es.filterMap noticeIn).filterMap (statusIn sid) := by
  unfold statusNtfs
  rw [List.filterMap_filterMap]
  refine List.filterMap_congr fun x _ => ?_
  cases x with
  | notify t n => cases n <;> rfl
  | _ => rfl

/-- C75: the states the host is told of, with those it is still to be told of, are the states the session went through, from
DEINIT along the life cycle to its present one. -/
theorem C75_states (ls : List Label) (s : System) (hr : Run .new ls s) (h : Nat) (sid : UInt32) :
    ∃ ch : List SessionState, List.IsChain Allowed (sessionStateDeinit :: ch) ∧
      (sessionStateDeinit :: ch).getLast (by simp) = stateAt (s.pica.devices.get? h) sid ∧
      ((arrived h ls ++ waiting h s).filterMap (statusIn sid)).Perm ch := by
  obtain ⟨h1, h2⟩ := C19_history s.pica (processed ls) (run_processed hr) h sid
  refine ⟨_, h1, h2, ?_⟩
  rw [statusNtfs_eq]
  exact (C75_once ls s hr h).filterMap _

theorem chain_count {ch : List SessionState} {a : SessionState} (h : List.IsChain Allowed (a :: ch)) :
    ch.count sessionStateInit + (if a = sessionStateDeinit then 0 else 1) =
      ch.count sessionStateDeinit + if (a :: ch).getLast (by simp) = sessionStateDeinit then 0 else 1 := by
  induction ch generalizing a with
  | nil => rfl
  | cons b ch ih =>
    rw [List.isChain_cons_cons] at h
    have := ih h.2
    rw [List.getLast_cons (List.cons_ne_nil b ch), List.count_cons, List.count_cons]
    rcases h.1 with ⟨rfl, rfl⟩ | ⟨rfl, rfl⟩ | ⟨rfl, rfl⟩ | ⟨rfl, rfl⟩ | ⟨ha, rfl⟩
    all_goals simp_all
    all_goals omega

/-- C75: whatever the order in which they come, once none is on its way the host knows from the notifications whether the
session exists: there has been one INIT more than DEINITs if it does, and as many if it does not. -/
theorem C75_exists (ls : List Label) (s : System) (hr : Run .new ls s) (h : Nat) (sid : UInt32) (hw : waiting h s = []) :
    ((arrived h ls).filterMap (statusIn sid)).count sessionStateInit =
      ((arrived h ls).filterMap (statusIn sid)).count sessionStateDeinit +
        if stateAt (s.pica.devices.get? h) sid = sessionStateDeinit then 0 else 1 := by
  obtain ⟨ch, h1, h2, h3⟩ := C75_states ls s hr h sid
  rw [hw, List.append_nil] at h3
  have := chain_count h1
  rw [h2] at this
  rw [h3.count_eq, h3.count_eq]
  simpa using this

/-! ### C76 -/

/-- C76 is false: a host that does not wait may be told of the states in another order than the session went through them. Here
the session became INIT, then IDLE. -/
theorem C76_false : ∃ ls s, Run .new ls s ∧ (scheduled 0 ls).filterMap (statusIn 7) = [sessionStateInit, sessionStateIdle] ∧
    (arrived 0 ls).filterMap (statusIn 7) = [sessionStateIdle, sessionStateInit] := by
  obtain ⟨ls, s, hr, hf⟩ := Ex.exists_sched
    (as := [.request .connect, .process] ++ Ex.send 0 Ex.reset ++ Ex.send 0 (Ex.sessionInit 7 1) ++
      Ex.send 0 (Ex.setApp 7 8 Ex.controller) ++ [.notifies 3, .notifies 2])
    (f := fun ls _ => decide ((scheduled 0 ls).filterMap (statusIn 7) = [sessionStateInit, sessionStateIdle]) &&
      decide ((arrived 0 ls).filterMap (statusIn 7) = [sessionStateIdle, sessionStateInit])) (by decide +kernel)
  simp only [Bool.and_eq_true, decide_eq_true_eq] at hf
  exact ⟨ls, s, hr, hf⟩

/-- C76, for a host that waits for each notification before it causes the next: it receives them in the order in which its
device scheduled them. -/
theorem C76_order_partial (ls : List Label) (s : System) (hr : Run .new ls s) (h : Nat) (hw : OneAtATime h ls) :
    arrived h ls <+: scheduled h ls := by
  generalize hn : System.new = n at hr
  induction hr with
  | nil => exact List.nil_prefix
  | @step t u ls l hr hs hst ih =>
    subst hn
    have ih := ih fun ls₁ h₁ => hw ls₁ (h₁.trans (List.prefix_append _ _))
    have hall := C75_once _ _ (.step hr hs hst) h
    have hlen := hw _ List.prefix_rfl
    have hprev := hw ls (List.prefix_append _ _)
    have ea : arrived h (ls ++ [l]) = arrived h ls ++ arrived h [l] := by unfold arrived; rw [List.filterMap_append]
    have es : scheduled h (ls ++ [l]) = scheduled h ls ++ scheduled h [l] := by
      unfold scheduled processed historyOf
      rw [List.filterMap_append, List.flatMap_append, List.filterMap_append]
    have idle : arrived h [l] = [] → arrived h (ls ++ [l]) <+: scheduled h (ls ++ [l]) := by
      intro e
      rw [ea, es, e, List.append_nil]
      exact ih.trans (List.prefix_append _ _)
    cases hst with
    | @notifies k m l' _ =>
      by_cases hk : k = h
      · subst hk
        have e1 : arrived k [Label.notifies k m] = [m] := by simp [arrived]
        have e2 : scheduled k [Label.notifies k m] = [] := rfl
        rw [ea, es, e1, e2, List.append_nil] at hall ⊢
        obtain ⟨r, hr'⟩ := ih
        rw [← hr'] at hall hprev ⊢
        rw [List.append_assoc, List.perm_append_left_iff] at hall
        rw [List.length_append] at hprev
        have hl := hall.length_eq
        match r, hall, hprev, hl with
        | [x], hall, _, hl =>
          have hw0 : waiting k { t with ntfs := l' } = [] := by
            rw [List.length_append] at hl
            exact List.eq_nil_of_length_eq_zero (by simpa using hl)
          rw [hw0] at hall
          have := List.singleton_perm_singleton.mp hall
          rw [this]
          exact List.prefix_rfl
        | [], _, _, hl => rw [List.length_append] at hl; simp at hl
        | x :: y :: r, _, hp, _ => simp at hp
      · exact idle (by simp [arrived, hk])
    | _ => exact idle rfl

theorem oneAtATime_of {h : Nat} {ls : List Label} (hx : ((List.range (ls.length + 1)).all fun i =>
    decide ((scheduled h (ls.take i)).length ≤ (arrived h (ls.take i)).length + 1)) = true) : OneAtATime h ls := by
  intro ls₁ hp
  have := List.all_eq_true.mp hx ls₁.length (List.mem_range.mpr (Nat.lt_succ_of_le hp.length_le))
  rw [← List.prefix_iff_eq_take.mp hp] at this
  exact of_decide_eq_true this

/-- A host that waits: it creates, configures and ends a session, and is told of the three states in order. -/
example : ∃ ls s, Run .new ls s ∧ OneAtATime 0 ls ∧ waiting 0 s = [] ∧
    (arrived 0 ls).filterMap (statusIn 7) = [sessionStateInit, sessionStateIdle, sessionStateDeinit] := by
  obtain ⟨ls, s, hr, hf⟩ := Ex.exists_sched
    (as := [.request .connect, .process, .notifies 0] ++ Ex.send 0 Ex.reset ++ [.notifies 0] ++ Ex.send 0 (Ex.sessionInit 7 1) ++
      [.notifies 0] ++ Ex.send 0 (Ex.setApp 7 8 Ex.controller) ++ [.notifies 0] ++ Ex.send 0 (Ex.sessionDeinit 7) ++ [.notifies 0])
    (f := fun ls s => ((List.range (ls.length + 1)).all fun i =>
        decide ((scheduled 0 (ls.take i)).length ≤ (arrived 0 (ls.take i)).length + 1)) && (waiting 0 s).isEmpty &&
      decide ((arrived 0 ls).filterMap (statusIn 7) = [sessionStateInit, sessionStateIdle, sessionStateDeinit]))
    (by decide +kernel)
  simp only [Bool.and_eq_true, decide_eq_true_eq, List.isEmpty_iff] at hf
  exact ⟨ls, s, hr, oneAtATime_of hf.1.1, hf.1.2, hf.2⟩

end Pica.Props

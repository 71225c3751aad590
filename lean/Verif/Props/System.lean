import Verif.Proofs.System
import Verif.Proofs.SystemExamples
import Verif.Spec.System
import Verif.Props.Ranging
import Verif.Props.Session
/-! C43 and C45: the ranging timers and the command queue, over all schedules. -/

set_option linter.dupNamespace false

namespace Pica
open Spec SessionState

/-- Only SESSION_START spawns a ranging task. -/
theorem exec_starts {d d' : Device} {tid : Nat} {c : Cmd} {r : Rsp} {e : List Effect} (h : d.exec tid c = .ok (d', r, e)) :
    starts e = [] ∨ ∃ sid, c = .sessionStart sid ∧ starts e = [(tid, sid)] := by
  have hset : ∀ (x : Device) st, starts (x.setState st).2 = [] := fun x st => by unfold Device.setState; split <;> rfl
  have hses : ∀ (x : Session) st r, starts (x.setState st r).2 = [] := fun x st r => by unfold Session.setState; split <;> rfl
  have hrel : ∀ {x : Device} {y}, x.releaseActive = .ok y → starts y.2 = [] := by
    intro x y hy
    unfold Device.releaseActive at hy
    split at hy
    · cases hy
    · cases hy
      split
      · exact hset _ _
      · rfl
  cases c with
  | coreDeviceReset rc =>
    cases h
    left
    rw [starts_append, starts_nil (started_dropSessions d)]
    rfl
  | coreGetDeviceInfo =>
    change d.coreGetDeviceInfo = _ at h
    unfold Device.coreGetDeviceInfo at h
    split at h <;> cases h; exact .inl rfl
  | coreGetCapsInfo => cases h; exact .inl rfl
  | coreSetConfig ps =>
    change d.coreSetConfig ps = _ at h
    unfold Device.coreSetConfig at h
    split at h <;> cases h; exact .inl rfl
  | coreGetConfig ids => cases h; exact .inl rfl
  | sessionInit x ty =>
    change Except.ok (d.sessionInit x ty) = _ at h
    unfold Device.sessionInit at h
    split at h
    · cases h; exact .inl rfl
    · split at h
      · cases h; exact .inl (starts_nil (drop_obs _).2.2.1)
      · cases h; exact .inl rfl
  | sessionDeinit x =>
    change d.sessionDeinit x = _ at h
    unfold Device.sessionDeinit at h
    split at h
    · rename_i s hs
      left
      split at h
      · cases hr : d.releaseActive with
        | error z => rw [hr] at h; cases h
        | ok z =>
          rw [hr] at h
          cases h
          rw [starts_append, hrel hr, starts_nil (drop_obs _).2.2.1]; rfl
      · cases h
        rw [starts_append, starts_nil (drop_obs _).2.2.1]; rfl
    · cases h; exact .inl rfl
  | sessionGetCount => cases h; exact .inl rfl
  | sessionSetAppConfig x l =>
    left
    change d.sessionSetAppConfig x l = _ at h
    unfold Device.sessionSetAppConfig at h
    split at h
    · cases h; rfl
    · split at h
      · cases h
      · split at h
        · cases h; rfl
        · split at h
          · cases h; rfl
          · rename_i s _ _ _ _
            cases hl : Device.setAppConfigLoop s.appConfig l with
            | error z => rw [hl] at h; cases h
            | ok z =>
              rw [hl] at h
              simp only [bind, Except.bind] at h
              split at h
              · cases h; rfl
              · split at h
                · split at h
                  · cases h; exact hses _ _ _
                  · cases h; rfl
                · cases h; rfl
  | sessionGetAppConfig x ids =>
    change Except.ok (d.sessionGetAppConfig x ids) = _ at h
    unfold Device.sessionGetAppConfig at h
    split at h <;> cases h <;> exact .inl rfl
  | sessionGetState x =>
    change Except.ok (d.sessionGetState x) = _ at h
    unfold Device.sessionGetState at h
    split at h <;> cases h <;> exact .inl rfl
  | sessionUpdateMulticast x a q =>
    left
    change Except.ok (d.sessionUpdateMulticast x a q) = _ at h
    unfold Device.sessionUpdateMulticast at h
    split at h
    · cases h; rfl
    · split at h
      · cases h; rfl
      · split at h
        · cases h; rfl
        · rename_i s _ _ _ addrs _
          rw [show e = _ from (congrArg (fun z => z.2.2) (Except.ok.inj h)).symm]
          dsimp only
          rw [starts_append]
          have h2 : starts (Device.updateControlees s x a addrs).effects = [] :=
            starts_nil (benign_obs (benign_update s x a addrs)).2.2.1
          rw [h2]
          split
          · exact hses _ _ _
          · rfl
  | sessionStart x =>
    change d.sessionStart tid x = _ at h
    unfold Device.sessionStart at h
    split at h
    · cases h; exact .inl rfl
    · split at h
      · cases h; exact .inl rfl
      · split at h
        · cases h
        · refine .inr ⟨x, rfl, ?_⟩
          rw [show e = _ from (congrArg (fun z => z.2.2) (Except.ok.inj h)).symm]
          show starts (Effect.startTimer tid x _ :: ((Session.setState _ _ _).2 ++ (Device.setState _ _).2)) = _
          rw [show ∀ (a : Effect) l, a :: l = [a] ++ l from fun _ _ => rfl, starts_append, starts_append, hses, hset]
          rfl
  | sessionStop x =>
    left
    change d.sessionStop x = _ at h
    unfold Device.sessionStop at h
    split at h
    · cases h; rfl
    · split at h
      · cases h; rfl
      · rename_i s hs _
        simp only [bind, Except.bind] at h
        split at h
        · cases h
        · rename_i z hr
          cases h
          rw [starts_append, starts_append, hses, hrel hr]
          unfold Session.stopRangingTask
          split <;> rfl
  | sessionGetRangingCount x =>
    change Except.ok (d.sessionGetRangingCount x) = _ at h
    unfold Device.sessionGetRangingCount at h
    split at h <;> cases h <;> exact .inl rfl
  | androidGetPowerStats => cases h; exact .inl rfl
  | androidSetCountryCode cc => cases h; exact .inl rfl

namespace Props
open Pica.System

theorem mem_running {s : System} {h : Nat} {sid : UInt32} {t : Timer} :
    t ∈ running s h sid ↔ t ∈ s.timers ∧ t = ⟨t.id, h, sid, false⟩ := by
  unfold running
  rw [List.mem_filter]
  obtain ⟨i, x, y, b⟩ := t
  refine and_congr_right fun _ => ?_
  cases b <;> simp

/-- The timers of a session follow from its ranging task. -/
theorem running_eq {s : System} (hi : Inv s) (h : Nat) (sid : UInt32) :
    running s h sid = (s.pica.taskAt h sid).toList.map fun t => ⟨t, h, sid, false⟩ := by
  have hn : (running s h sid).Nodup := (List.Nodup.of_map _ hi.ids).filter _
  have hmem : ∀ t, t ∈ running s h sid ↔ ∃ i, s.pica.taskAt h sid = some i ∧ t = ⟨i, h, sid, false⟩ := by
    intro t
    rw [mem_running]
    constructor
    · rintro ⟨h1, h2⟩
      exact ⟨t.id, (hi.live _ _ _).mp (h2 ▸ h1), h2⟩
    · rintro ⟨i, h1, rfl⟩
      exact ⟨(hi.live _ _ _).mpr h1, rfl⟩
  cases hx : s.pica.taskAt h sid with
  | none =>
    apply List.eq_nil_iff_forall_not_mem.mpr
    intro t ht
    obtain ⟨i, h1, -⟩ := (hmem t).mp ht
    rw [hx] at h1; cases h1
  | some i =>
    have h1 : (⟨i, h, sid, false⟩ : Timer) ∈ running s h sid := (hmem _).mpr ⟨i, hx, rfl⟩
    have h2 : ∀ t ∈ running s h sid, t = ⟨i, h, sid, false⟩ := by
      intro t ht
      obtain ⟨j, h3, rfl⟩ := (hmem t).mp ht
      rw [hx] at h3; cases h3; rfl
    show _ = [(⟨i, h, sid, false⟩ : Timer)]
    cases hl : running s h sid with
    | nil => rw [hl] at h1; cases h1
    | cons a l =>
      rw [hl] at h2 hn
      cases l with
      | nil => rw [h2 a (by simp)]
      | cons b l =>
        rw [h2 a (by simp), h2 b (by simp)] at hn
        simp at hn

theorem taskAt_eq {p : Pica} {h : Nat} {sid : UInt32} {d : Device} {s : Session} (hd : p.devices.get? h = some d)
    (hs : d.sessions.get? sid = some s) : p.taskAt h sid = s.rangingTask := by
  unfold Pica.taskAt Device.task Device.session
  rw [hd, Option.bind_some, hs, Option.bind_some]

theorem taskAt_some {p : Pica} {h : Nat} {sid : UInt32} {t : Nat} (ht : p.taskAt h sid = some t) :
    ∃ d s, p.devices.get? h = some d ∧ d.sessions.get? sid = some s ∧ s.rangingTask = some t := by
  unfold Pica.taskAt Device.task Device.session at ht
  obtain ⟨d, hd, ht⟩ := Option.bind_eq_some_iff.mp ht
  obtain ⟨s, hs, ht⟩ := Option.bind_eq_some_iff.mp ht
  exact ⟨d, s, hd, hs, ht⟩

/-! ### C43 -/

/-- C43: in every state of every schedule a session has at most one running timer, and an ACTIVE session exactly one. -/
theorem C43_one (s : System) (hs : s.Reachable) (h : Nat) (sid : UInt32) :
    (running s h sid).length ≤ 1 ∧
    ∀ d x, s.pica.devices.get? h = some d → d.sessions.get? sid = some x → x.state = sessionStateActive →
      (running s h sid).length = 1 := by
  have hi := reachable_inv hs
  rw [running_eq hi]
  constructor
  · cases s.pica.taskAt h sid <;> simp
  · intro d x hd hx ha
    rw [taskAt_eq hd hx]
    have := ((hi.pica.dev h d hd).2.2.2.sess sid x hx).task ha
    cases ht : x.rangingTask with
    | none => exact absurd ht this
    | some t => rfl

/-- C43: a running timer belongs to a session that exists, on a device that is connected, and that is ACTIVE or
IDLE. -/
theorem C43_owner (s : System) (hs : s.Reachable) (t : Timer) (ht : t ∈ s.timers) (ha : t.aborted = false) :
    ∃ d x, s.pica.devices.get? t.device = some d ∧ d.sessions.get? t.session = some x ∧
      (x.state = sessionStateActive ∨ x.state = sessionStateIdle) := by
  have hi := reachable_inv hs
  obtain ⟨i, h, sid, b⟩ := t
  cases ha
  obtain ⟨d, x, hd, hx, htask⟩ := taskAt_some ((hi.live h sid i).mp ht)
  refine ⟨d, x, hd, hx, ?_⟩
  have hno := ((hi.pica.dev h d hd).2.2.2.sess sid x hx).noTask
  cases hst : x.state with
  | sessionStateActive => exact .inl rfl
  | sessionStateIdle => exact .inr rfl
  | sessionStateInit => rw [hno (.inl hst)] at htask; cases htask
  | sessionStateDeinit => rw [hno (.inr hst)] at htask; cases htask

theorem process_pica {s u : System} {ev : Pica.Event} (h : Step s (.process ev) u) :
    s.pica.step ev.env ev.command = .ok (u.pica, ev.out) ∧ ev.env.tid = s.spawned ∧ ev.env.alive = s.alive ∧
      s.queue = ev.command :: u.queue := by
  cases h with
  | @process est c q p out hq hst =>
    obtain ⟨f1, f2, -⟩ := applyAll_frame out { s with pica := p, queue := q, spawned := s.spawned + 1 }
    rw [f1, f2]
    exact ⟨hst, rfl, rfl, hq⟩

theorem halts_task {p p' : Pica} (hi : p.PInv) (hp : p.Reachable) {env : Env} {c : Command} {out : List Out}
    (hst : p.step env c = .ok (p', out)) {h : Nat} {sid : UInt32} (hh : Halts p h sid ⟨env, c, out⟩) :
    p'.taskAt h sid = none := by
  rcases hh with he | ⟨bytes, hc, hcmd, hok⟩ | ⟨mac, d, s, hc, hd, hs, ha, hm⟩
  · have hb := book_step h sid hi hst
    have hnone : bookOf (p'.devices.get? h) sid = none := by
      generalize bookOf (p.devices.get? h) sid = o at hb
      generalize bookOf (p'.devices.get? h) sid = o' at hb
      cases hb with
      | ends => rfl
      | creates _ ty hcr _ _ =>
        exfalso
        obtain ⟨bytes, ty, hc, hcmd, hrsp⟩ := hcr
        rcases he with he | ⟨bytes', hc', he⟩
        · rw [hc] at he; cases he
        · rw [hc] at hc'; cases hc'
          rcases he with ⟨rc, he⟩ | ⟨he, -⟩
          · cases isCmd_unique hcmd he
          · cases isCmd_unique hcmd he
      | silent _ _ _ _ hn => exact absurd he hn
      | info _ _ _ _ hn => exact absurd he hn
      | queue _ _ _ _ _ hn => exact absurd he hn
      | same _ _ hn => exact absurd he hn
    cases hx : p'.taskAt h sid with
    | none => rfl
    | some t =>
      obtain ⟨d, s, hd, hs, -⟩ := taskAt_some hx
      unfold bookOf at hnone
      rw [hd, Option.bind_some, hs] at hnone
      cases hnone
  · dsimp only at hc hok
    subst hc
    cases hd : p.devices.get? h with
    | none =>
      rw [uci_absent hd] at hst
      cases hst
      unfold Pica.taskAt; rw [hd]; rfl
    | some d =>
      have hcases := C29_stop p hp env h d sid hd
      by_cases hr : d.isReset = true
      · obtain ⟨h1, h2⟩ := hcases hr
        cases hs : d.sessions.get? sid with
        | none =>
          rw [h1 hs bytes hcmd] at hst
          cases hst
          unfold sentTo at hok
          simp at hok
          exact absurd hok (by decide)
        | some s =>
          by_cases ha : s.state = sessionStateActive
          · obtain ⟨t, -, h3⟩ := (h2 s hs).2 ha
            rw [h3 bytes hcmd] at hst
            cases hst
            refine (taskAt_eq (d := _) (AMap.get?_insert_self _ _ _) (AMap.get?_insert_self _ _ _)).trans rfl
          · rw [(h2 s hs).1 ha bytes hcmd] at hst
            cases hst
            unfold sentTo at hok
            simp at hok
            exact absurd hok (by decide)
      · have hfr := ((hi.dev h d hd).2.2.2.fresh (by simpa using hr)).1
        rw [uci_step hd] at hst
        cases hx : d.receivePacket env.tid bytes with
        | error z => rw [hx] at hst; cases hst
        | ok y =>
          obtain ⟨d₁, r, e₁⟩ := y
          rw [hx] at hst
          cases hst
          rcases receive_isCmd hcmd hx with ⟨rfl, -⟩ | ⟨hready, -⟩
          · show Pica.taskAt _ h sid = none
            unfold Pica.taskAt Device.task Device.session
            rw [show AMap.get? (AMap.insert p.devices h d₁) h = some d₁ from AMap.get?_insert_self _ _ _, Option.bind_some, hfr]
            rfl
          · rcases hready with hr' | ⟨rc, hrc⟩
            · exact absurd hr' hr
            · cases hrc
  · dsimp only at hc
    subst hc
    obtain ⟨p₁, out₁, h1, -, -, -, h2⟩ := C38_stop p hp env mac sid
    rw [h1] at hst
    cases hst
    rcases h2 h with ⟨h3, -⟩ | ⟨q, q', hq, hq', h3⟩
    · rw [hd] at h3; cases h3
    · rw [hd] at hq; cases hq
      rcases h3 with ⟨s', t, hs', -, -, -, rfl, -⟩ | ⟨hno, -⟩
      · exact (taskAt_eq hq' (AMap.get?_insert_self _ _ _)).trans rfl
      · exact absurd ⟨ha, hm⟩ (hno s hs)

/-- The events a schedule processes are a history of the emulator. -/
theorem run_processed {ls : List Label} {s : System} (h : Run .new ls s) : Pica.Run .new (processed ls) s.pica := by
  generalize hn : System.new = n at h
  induction h with
  | nil => subst hn; exact .nil
  | @step t u ls l hr hst hs ih =>
    have happ : processed (ls ++ [l]) = processed ls ++ processed [l] := List.filterMap_append
    cases l with
    | process ev =>
      rw [happ]
      exact .cmd ih (process_pica hs).1
    | shuffle =>
      rw [happ, show processed [Label.shuffle] = [] from rfl, List.append_nil]
      cases hs with
      | shuffle hro => exact .reorder ih hro
    | _ =>
      rw [happ, show processed [_] = [] from rfl, List.append_nil]
      cases hs; exact ih

theorem pica_reachable {s : System} (h : s.Reachable) : s.pica.Reachable := by
  obtain ⟨ls, h⟩ := h
  exact ⟨_, run_processed h⟩

/-- C43: no timer of a session survives SESSION_STOP, SESSION_DEINIT, CORE_DEVICE_RESET, the disconnection of the device
or an in-band stop. -/
theorem C43_none_survives (s u : System) (hs : s.Reachable) (ev : Pica.Event) (hst : Step s (.process ev) u) (h : Nat)
    (sid : UInt32) (hh : Halts s.pica h sid ev) : running u h sid = [] := by
  rw [running_eq (step_inv (reachable_inv hs) hst)]
  obtain ⟨h1, -⟩ := process_pica hst
  rw [halts_task (reachable_inv hs).pica (pica_reachable hs) h1 hh]
  rfl

/-- C43: a session without running timer gets one only by a SESSION_START of its host. -/
theorem C43_start (s u : System) (hs : s.Reachable) (l : Label) (hst : Step s l u) (h : Nat) (sid : UInt32)
    (h0 : running s h sid = []) (h1 : running u h sid ≠ []) :
    ∃ ev bytes, l = .process ev ∧ ev.command = .uciPacket h bytes ∧ IsCmd bytes (.sessionStart sid) ∧
      .rsp (.sessionStart .ok) ∈ sentTo h ev.out := by
  have hi := reachable_inv hs
  have hiu := step_inv hi hst
  rw [running_eq hi] at h0
  rw [running_eq hiu] at h1
  have hnone : s.pica.taskAt h sid = none := by
    cases hx : s.pica.taskAt h sid with
    | none => rfl
    | some t => rw [hx] at h0; cases h0
  obtain ⟨t, ht⟩ : ∃ t, u.pica.taskAt h sid = some t := by
    cases hx : u.pica.taskAt h sid with
    | none => rw [hx] at h1; exact absurd rfl h1
    | some t => exact ⟨t, rfl⟩
  have hsame : u.pica = s.pica → False := by
    intro e; rw [e, hnone] at ht; cases ht
  cases l with
  | process ev =>
    obtain ⟨hp, -⟩ := process_pica hst
    have := (Pica.step_tasks hi.pica hp hi.inj h sid t).mp ht
    rw [hnone] at this
    rcases this with ⟨h2, -⟩ | h2
    · cases h2
    · obtain ⟨env, c, out⟩ := ev
      dsimp only at hp h2
      rw [mem_startsOut] at h2
      cases c with
      | uciPacket y bytes =>
        cases hd : s.pica.devices.get? y with
        | none =>
          rw [uci_absent hd] at hp
          rw [show out = [] from (congrArg Prod.snd (Except.ok.inj hp)).symm] at h2
          cases h2
        | some d =>
          rw [uci_step hd] at hp
          cases hx : d.receivePacket env.tid bytes with
          | error z => rw [hx] at hp; cases hp
          | ok z =>
            obtain ⟨d', r, e⟩ := z
            rw [hx] at hp
            have hout : out = (r.map (.send y)).toList ++ e.map (.effect y) :=
              (congrArg Prod.snd (Except.ok.inj hp)).symm
            rw [hout] at h2 ⊢
            rw [effectsOf_append, effectsOf_map, show effectsOf h (r.map (Out.send y)).toList = [] by cases r <;> rfl,
              List.nil_append] at h2
            by_cases hy : y = h
            · subst hy
              rw [if_pos rfl] at h2
              cases receive_ok hx with
              | cmd _ c _ rsp _ hc hr hexec hf =>
                rcases exec_starts hexec with h3 | ⟨sid', rfl, h3⟩
                · rw [h3] at h2; cases h2
                · rw [h3, List.mem_singleton] at h2
                  cases h2
                  refine ⟨_, bytes, rfl, rfl, hc, ?_⟩
                  have hrsp : rsp = .sessionStart .ok := by
                    change d.sessionStart env.tid sid = _ at hexec
                    unfold Device.sessionStart at hexec
                    split at hexec
                    · cases hexec; cases h3
                    · split at hexec
                      · cases hexec; cases h3
                      · split at hexec
                        · cases hexec
                        · exact (congrArg (fun x => x.2.1) (Except.ok.inj hexec)).symm
                  subst hrsp
                  simp [sentTo]
              | _ => cases h2
            · rw [if_neg hy] at h2; cases h2
      | _ =>
        exfalso
        rw [← mem_startsOut] at h2
        rw [Pica.step_noStarts hi.pica hp (by simp)] at h2
        cases h2
  | shuffle =>
    cases hst with
    | shuffle hro => rw [taskAt_reorder hi.pica hro, hnone] at ht; cases ht
  | _ => exact (hsame (by cases hst; rfl)).elim

/-! ### C45 -/

/-- C45: the commands put in the queue are those dequeued from it followed by those still in it, in the same order. -/
theorem C45_fifo (s : System) (ls : List Label) (hr : Run .new ls s) :
    ls.filterMap enqueued = ls.filterMap dequeued ++ s.queue := by
  generalize hn : System.new = n at hr
  induction hr with
  | nil => subst hn; rfl
  | @step t u ls l hr hst hs ih =>
    rw [List.filterMap_append, List.filterMap_append, ih, List.append_assoc, List.append_assoc]
    congr 1
    cases hs with
    | process hq hst =>
      rw [(applyAll_frame _ _).2.1, hq]
      simp [enqueued, dequeued]
    | panics hq _ => rw [hq]; simp [enqueued, dequeued]
    | _ => simp [enqueued, dequeued, List.filterMap_cons]

/-- C45: the queue never holds more than 1020 commands. -/
theorem C45_bound (s : System) (hs : s.Reachable) : s.queue.length ≤ 1020 := (reachable_inv hs).queue

/-- C45: as long as the emulator runs, the oldest command in the queue can be processed, whatever the others wait
for; this takes the command from the queue and puts none in, so there is room again. -/
theorem C45_progress (s : System) (c : Command) (q : List Command) (hq : s.queue = c :: q)
    (estimate : Nat → Nat → Option RangingMeasurement) :
    ∃ l u, Step s l u ∧ dequeued l = some c ∧ enqueued l = none ∧ u.queue = q := by
  cases hx : s.pica.step (s.env estimate) c with
  | ok z =>
    obtain ⟨p, out⟩ := z
    exact ⟨_, _, .process hq hx, rfl, rfl, by rw [(applyAll_frame _ _).2.1]⟩
  | error x => exact ⟨_, _, .panics hq hx, rfl, rfl, rfl⟩

/-! ### Examples -/

/-- A session that was started has one timer, and the timer has put a round in the queue. -/
example : ∃ ls s, Run .new ls s ∧ (decide ((running s 0 7).length = 1) && decide (s.queue = [.ranging 0 7])) = true :=
  Ex.exists_sched (as := Ex.active ++ [.tick 0]) (by decide +kernel)

/-- After SESSION_STOP the timer is there but aborted, and may even put a round in the queue. -/
example : ∃ ls s, Run .new ls s ∧
    (decide (running s 0 7 = []) && decide (s.timers.length = 1) && decide (s.queue = [.ranging 0 7])) = true :=
  Ex.exists_sched (as := Ex.active ++ Ex.send 0 (Ex.stop 7) ++ [.tick 0]) (by decide +kernel)

/-- The hypotheses of `C43_none_survives` hold of the disconnection of a device with a running timer. -/
example : ∃ s u ev, s.Reachable ∧ Step s (.process ev) u ∧ Halts s.pica 0 7 ev ∧ running s 0 7 ≠ [] := by
  have h : (Ex.sched .new [] (Ex.active ++ [.closes 0, .leaves 0])).any (fun z =>
      decide (running z.2 0 7 ≠ []) && (Ex.act z.2 .process).any fun y =>
        match y.1 with
        | .process ev => decide (ev.command = .disconnect 0)
        | _ => false) = true := by decide +kernel
  cases hx : Ex.sched .new [] (Ex.active ++ [.closes 0, .leaves 0]) with
  | none => rw [hx] at h; cases h
  | some z =>
    obtain ⟨ls, s⟩ := z
    rw [hx, Option.any_some, Bool.and_eq_true] at h
    obtain ⟨h1, h2⟩ := h
    cases ha : Ex.act s .process with
    | none => rw [ha] at h2; cases h2
    | some y =>
      obtain ⟨l, u⟩ := y
      rw [ha, Option.any_some] at h2
      cases l with
      | process ev =>
        exact ⟨s, u, ev, ⟨ls, Ex.sched_run .nil hx⟩, Ex.act_step ha, .inl (.inl (of_decide_eq_true h2)), of_decide_eq_true h1⟩
      | _ => cases h2

/-- A schedule in which commands overtake none: a round is queued behind a packet. -/
example : ∃ ls s, Run .new ls s ∧
    (decide (ls.filterMap enqueued = [.connect, .uciPacket 0 Ex.reset, .uciPacket 0 (Ex.sessionInit 7 1), .connect]) &&
      decide (ls.filterMap dequeued = [.connect, .uciPacket 0 Ex.reset]) &&
      decide (s.queue = [.uciPacket 0 (Ex.sessionInit 7 1), .connect])) = true :=
  Ex.exists_sched (as := [.request .connect, .process, .packet 0 Ex.reset, .packet 0 (Ex.sessionInit 7 1), .process,
    .request .connect]) (by decide +kernel)

end Props
end Pica

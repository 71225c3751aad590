import Verif.Props.Rate
/-! C97: a running session ranges at least as often as its interval and the machine allow. -/

namespace Pica.Props
open Spec System SessionState

theorem prompt_run {late lag : Nat} {n s : Clock} {ls : List (Nat × Label)} (h : PromptRun late lag n ls s) :
    Clock.Run late n ls s := by
  induction h with
  | nil => exact .nil
  | step _ h1 h2 h3 _ h5 ih => exact .step ih h1 h2 h3 h5

/-- The running task `k` of a session was started by the last SESSION_START and has been on time since. -/
structure OnTime (lag h : Nat) (sid : UInt32) (k : Nat) (ls : List (Nat × Label)) (s : Clock) (a b : List (Nat × Label)) (t₀ : Nat)
    (ev : Pica.Event) (i : UInt32) : Prop where
  split : ls = a ++ (t₀, .process ev) :: b
  starts : .effect h (.startTimer k sid i) ∈ ev.out
  last : ∀ t ev', (t, Label.process ev') ∈ b → ∀ k' i', .effect h (.startTimer k' sid i') ∉ ev'.out
  chain : List.IsChain (fun x y => x + 1000 * i.toNat ≤ y ∧ y ≤ x + 1000 * i.toNat + lag) (t₀ :: ticks k b)
  wake : s.wakes.get? k = some (1000 * i.toNat, (ticks k b).getLast?.getD t₀ + 1000 * i.toNat)
  mine : (ticks k b).length ≤ (beats h sid b).length
  past : (ticks k b).getLast?.getD t₀ ≤ s.now
  now : s.now ≤ (ticks k b).getLast?.getD t₀ + 1000 * i.toNat + lag

theorem beats_append (h : Nat) (sid : UInt32) (a b : List (Nat × Label)) : beats h sid (a ++ b) = beats h sid a ++ beats h sid b := by
  unfold beats; exact List.filterMap_append

theorem ranged_append (h : Nat) (sid : UInt32) (a b : List (Nat × Label)) :
    ranged h sid (a ++ b) = ranged h sid a ++ ranged h sid b := by
  unfold ranged; exact List.filterMap_append

theorem paced_live {late lag : Nat} {ls : List (Nat × Label)} {s : Clock} (hr : PromptRun late lag .new ls s) :
    ∀ h sid k, (⟨k, h, sid, false⟩ : Timer) ∈ s.sys.timers → ∃ a b t₀ ev i, OnTime lag h sid k ls s a b t₀ ev i := by
  induction hr with
  | nil => intro h sid k hk; cases hk
  | @step r u ls t l hr hs ht hp hlag hst ih =>
    intro h sid k hk
    have hreach : r.sys.Reachable := ⟨_, clock_run (prompt_run hr)⟩
    have hinv := reachable_inv hreach
    -- a step that leaves the task alone
    have keep : (⟨k, h, sid, false⟩ : Timer) ∈ r.sys.timers → ticks k [(t, l)] = [] →
        (∀ ev, l = .process ev → ∀ k' i', .effect h (.startTimer k' sid i') ∉ ev.out) → u.now = t →
        u.wakes.get? k = r.wakes.get? k →
        ∃ a b t₀ ev i, OnTime lag h sid k (ls ++ [(t, l)]) u a b t₀ ev i := by
      intro hk' htk hno hnow hwk
      obtain ⟨a, b, t₀, ev, i, hpd⟩ := ih h sid k hk'
      have hb : ticks k (b ++ [(t, l)]) = ticks k b := by rw [ticks_append, htk, List.append_nil]
      refine ⟨a, b ++ [(t, l)], t₀, ev, i, ?_, hpd.starts, ?_, ?_, ?_, ?_, ?_, ?_⟩
      · rw [hpd.split]; simp
      · intro t' ev' hm
        rcases List.mem_append.mp hm with hm | hm
        · exact hpd.last t' ev' hm
        · cases List.mem_singleton.mp hm
          exact hno ev' rfl
      · rw [hb]; exact hpd.chain
      · rw [hb, hwk]; exact hpd.wake
      · rw [hb, beats_append, List.length_append]; exact Nat.le_add_right_of_le hpd.mine
      · rw [hb, hnow]; exact Nat.le_trans hpd.past ht
      · rw [hb, hnow]; exact hlag _ hk' rfl _ _ hpd.wake
    cases hst with
    | @plain _ _ hpl hsys =>
      refine keep (other_timers hsys (by rintro ev rfl; exact hpl) _ hk) ?_ (by rintro ev rfl; exact hpl.elim) rfl rfl
      cases l <;> first | rfl | exact hpl.elim
    | notifies _ _ hsys => exact keep (other_timers hsys (by simp) _ hk) rfl (by simp) rfl rfl
    | @tick x i due _ hw hd hsys =>
      have hk' := other_timers hsys (by simp) _ hk
      by_cases hx : x.id = k
      · have hxm : x ∈ r.sys.timers := by cases hsys; assumption
        have hxe : x = ⟨k, h, sid, false⟩ := unique hinv.ids hxm hk' hx
        subst hxe
        obtain ⟨a, b, t₀, ev, j, hpd⟩ := ih h sid k hk'
        have hwk := hpd.wake
        rw [hw] at hwk
        obtain ⟨h1, h2⟩ := Prod.mk.inj (Option.some.inj hwk)
        have hlate := hlag _ hk' rfl _ _ hw
        have hb : ticks k (b ++ [(t, Label.tick ⟨k, h, sid, false⟩)]) = ticks k b ++ [t] := by
          rw [ticks_append]; simp [ticks]
        refine ⟨a, b ++ [(t, .tick ⟨k, h, sid, false⟩)], t₀, ev, j, ?_, hpd.starts, ?_, ?_, ?_, ?_, ?_, ?_⟩
        · rw [hpd.split]; simp
        · intro t' ev' hm
          rcases List.mem_append.mp hm with hm | hm
          · exact hpd.last t' ev' hm
          · cases List.mem_singleton.mp hm
        · rw [hb, ← List.cons_append, List.isChain_append]
          refine ⟨hpd.chain, List.isChain_singleton _, ?_⟩
          intro y hy z hz
          rw [List.getLast?_cons, Option.mem_some_iff] at hy
          rw [List.head?_cons, Option.mem_some_iff] at hz
          subst hy hz
          omega
        · rw [hb]
          show AMap.get? (if false = true then r.wakes.erase k else AMap.insert r.wakes k (i, t + i)) k = _
          rw [if_neg (by simp), AMap.get?_insert_self, h1]
          simp
        · rw [hb, beats_append, List.length_append, List.length_append]
          have := hpd.mine
          simp [beats]
          exact this
        · rw [hb]
          show _ ≤ t
          simp
        · rw [hb]
          show t ≤ _
          simp
          omega
      · refine keep hk' ?_ (by simp) rfl ?_
        · simp [ticks, hx]
        · show AMap.get? (if x.aborted then r.wakes.erase x.id else r.wakes.insert x.id (i, t + i)) k = _
          split
          · exact AMap.get?_erase_of_ne (Ne.symm hx)
          · exact AMap.get?_insert_of_ne (Ne.symm hx)
    | @process ev v hsys =>
      have hst : Clock.Step t r (.process ev) _ := .process hsys
      have hiu := step_inv hinv hsys
      rcases process_timers hinv hsys with ⟨h0, h1⟩ | ⟨x, sid', h0, h1, h2⟩
      · have hk2 : (⟨k, h, sid, false⟩ : Timer) ∈ v.timers := hk
        rw [h1, mem_mark] at hk2
        have hno : ∀ y sid k' i', .effect y (.startTimer k' sid i') ∉ ev.out := by
          intro y sid k' i' hm
          have := mem_startsOut' hm
          rw [h0] at this
          cases this
        refine keep hk2.1 rfl ?_ rfl ?_
        · intro ev' he k' i'
          cases he
          exact hno _ _ _ _
        · exact alarm_keep hk2.2 fun ⟨y, sid, i, hm⟩ => hno y sid k i hm
      · by_cases hn : k = r.sys.spawned
        · -- it was started now
          have hm : (k, h, sid) ∈ startsOut ev.out := by
            have hk2 : (⟨k, h, sid, false⟩ : Timer) ∈ v.timers := hk
            rw [h2] at hk2
            rcases List.mem_append.mp hk2 with hk2 | hk2
            · have := hinv.bound _ hk2
              dsimp only at this
              omega
            · cases List.mem_singleton.mp hk2
              rw [h0]
              exact List.mem_singleton.mpr rfl
          obtain ⟨i, hm⟩ := mem_startsOut_iff.mp hm
          refine ⟨ls, [], t, ev, i, rfl, hm, ?_, List.isChain_singleton _, ?_, Nat.le_refl _, Nat.le_refl _, ?_⟩
          · intro _ _ h
            cases h
          · exact alarm_start h1 hm ⟨_, h0⟩
          · show t ≤ t + _ + _
            omega
        · have hk' : (⟨k, h, sid, false⟩ : Timer) ∈ r.sys.timers := by
            have hk2 : (⟨k, h, sid, false⟩ : Timer) ∈ v.timers := hk
            rw [h2] at hk2
            rcases List.mem_append.mp hk2 with hk2 | hk2
            · exact hk2
            · cases List.mem_singleton.mp hk2
              exact absurd rfl hn
          refine keep hk' rfl ?_ rfl ?_
          · intro ev' he k' i' hm
            cases he
            have hm' := mem_startsOut' hm
            rw [h0] at hm'
            cases List.mem_singleton.mp hm'
            have hnew : (⟨r.sys.spawned, h, sid, false⟩ : Timer) ∈ v.timers := by
              rw [h2]
              exact List.mem_append_right _ (List.mem_singleton.mpr rfl)
            have e1 := (hiu.live _ _ _).mp hnew
            have e2 := (hiu.live _ _ _).mp hk
            rw [e1] at e2
            exact hn (Option.some.inj e2).symm
          · refine alarm_keep (by rw [h1]; exact List.not_mem_nil) ?_
            rintro ⟨y, sid2, i, hm⟩
            have hm' := mem_startsOut' hm
            rw [h0] at hm'
            cases List.mem_singleton.mp hm'
            exact hn rfl

theorem live_task {late : Nat} {ls : List (Nat × Label)} {s : Clock} (hr : Clock.Run late .new ls s) {h : Nat} {sid : UInt32}
    {d : Device} {x : Session} (hd : s.sys.pica.devices.get? h = some d) (hx : d.sessions.get? sid = some x)
    (ha : x.state = sessionStateActive) : ∃ k, (⟨k, h, sid, false⟩ : Timer) ∈ s.sys.timers := by
  have hi := reachable_inv (⟨_, clock_run hr⟩ : s.sys.Reachable)
  have hone := (C43_one s.sys ⟨_, clock_run hr⟩ h sid).2 d x hd hx ha
  rw [running_eq hi] at hone
  cases ht : s.sys.pica.taskAt h sid with
  | none => rw [ht] at hone; cases hone
  | some k => exact ⟨k, (hi.live _ _ _).mpr ht⟩

/-! Concrete schedules. -/

def promptly (late lag : Nat) (s : Clock) (ls : List (Nat × Label)) : List (Nat × Ex.Act) → Option (List (Nat × Label) × Clock)
  | [] => some (ls, s)
  | (t, a) :: as =>
    if s.sys.stopped = false ∧ s.now ≤ t ∧ (s.naps.all fun x => decide (t ≤ x.2.2 + late)) = true ∧
        (s.sys.timers.all fun k => k.aborted || (s.wakes.get? k.id).all fun w => decide (t ≤ w.2 + lag)) = true then
      match Ex.clk s t a with
      | some (l, u) => promptly late lag u (ls ++ [(t, l)]) as
      | none => none
    else none

theorem promptly_run {late lag : Nat} {as : List (Nat × Ex.Act)} {n s u : Clock} {ls ls' : List (Nat × Label)}
    (hr : PromptRun late lag n ls s) (h : promptly late lag s ls as = some (ls', u)) : PromptRun late lag n ls' u := by
  induction as generalizing s ls with
  | nil => cases h; exact hr
  | cons a as ih =>
    obtain ⟨t, a⟩ := a
    unfold promptly at h
    split at h
    · rename_i hc
      obtain ⟨h1, h2, h3, h4⟩ := hc
      cases ha : Ex.clk s t a with
      | none => rw [ha] at h; cases h
      | some z =>
        obtain ⟨l, v⟩ := z
        rw [ha] at h
        refine ih (.step hr h1 h2 (fun x hx => of_decide_eq_true (List.all_eq_true.mp h3 x hx)) ?_ (Ex.clk_step ha)) h
        intro k hk hab i due hw
        have := List.all_eq_true.mp h4 k hk
        rw [hab, Bool.false_or, hw] at this
        exact of_decide_eq_true this
    · cases h

theorem exists_promptly {late lag : Nat} {as : List (Nat × Ex.Act)} {f : List (Nat × Label) → Clock → Bool}
    (h : (promptly late lag .new [] as).any (fun z => f z.1 z.2) = true) :
    ∃ ls s, PromptRun late lag .new ls s ∧ f ls s = true := by
  cases hx : promptly late lag .new [] as with
  | none => rw [hx] at h; cases h
  | some z => obtain ⟨ls, s⟩ := z; rw [hx] at h; exact ⟨ls, s, promptly_run .nil hx, h⟩

/-- The state of a session of a device. -/
def stateNow (s : Clock) (h : Nat) (sid : UInt32) : Option SessionState :=
  (s.sys.pica.devices.get? h).bind fun d => (d.sessions.get? sid).map (·.state)

/-- C97: a session that is ACTIVE was started by the last accepted SESSION_START, and its task has since put a command in the
queue in every interval: after each command, or the start, the next comes no sooner than the interval and no later than `lag`
after it, up to now. -/
theorem C97_pace (late lag : Nat) (ls : List (Nat × Label)) (s : Clock) (hr : PromptRun late lag .new ls s) (h : Nat) (sid : UInt32)
    (d : Device) (x : Session) (hd : s.sys.pica.devices.get? h = some d) (hx : d.sessions.get? sid = some x)
    (ha : x.state = sessionStateActive) :
    ∃ a b t₀ ev k i, ls = a ++ (t₀, .process ev) :: b ∧ .effect h (.startTimer k sid i) ∈ ev.out ∧
      (∀ t ev', (t, Label.process ev') ∈ b → ∀ k' i', .effect h (.startTimer k' sid i') ∉ ev'.out) ∧
      List.IsChain (fun x y => x + 1000 * i.toNat ≤ y ∧ y ≤ x + 1000 * i.toNat + lag) (t₀ :: ticks k b) ∧
      (ticks k b).getLast?.getD t₀ ≤ lastTime ls ∧ lastTime ls ≤ (ticks k b).getLast?.getD t₀ + 1000 * i.toNat + lag := by
  obtain ⟨k, hk⟩ := live_task (prompt_run hr) hd hx ha
  obtain ⟨a, b, t₀, ev, i, hp⟩ := paced_live hr h sid k hk
  refine ⟨a, b, t₀, ev, k, i, hp.split, hp.starts, hp.last, hp.chain, ?_⟩
  rw [lastTime_run (prompt_run hr)]
  exact ⟨hp.past, hp.now⟩

theorem chain_pace {m lag t₀ : Nat} {l : List Nat} (h : List.IsChain (fun x y => x + m ≤ y ∧ y ≤ x + m + lag) (t₀ :: l)) :
    t₀ + l.length * m ≤ l.getLast?.getD t₀ ∧ l.getLast?.getD t₀ ≤ t₀ + l.length * (m + lag) := by
  induction l generalizing t₀ with
  | nil => simp
  | cons x l ih =>
    rw [List.isChain_cons_cons] at h
    have := ih h.2
    rw [List.getLast?_cons, Option.getD_some, List.length_cons, Nat.add_mul, Nat.add_mul]
    omega

/-- C97: the number of commands the task of an ACTIVE session has put in the queue since its start is the time since then
divided by the interval, within the lag. -/
theorem C97_count (late lag : Nat) (ls : List (Nat × Label)) (s : Clock) (hr : PromptRun late lag .new ls s) (h : Nat) (sid : UInt32)
    (d : Device) (x : Session) (hd : s.sys.pica.devices.get? h = some d) (hx : d.sessions.get? sid = some x)
    (ha : x.state = sessionStateActive) :
    ∃ a b t₀ ev k i, ls = a ++ (t₀, .process ev) :: b ∧ .effect h (.startTimer k sid i) ∈ ev.out ∧
      t₀ + (ticks k b).length * (1000 * i.toNat) ≤ lastTime ls ∧
      lastTime ls ≤ t₀ + ((ticks k b).length + 1) * (1000 * i.toNat + lag) := by
  obtain ⟨a, b, t₀, ev, k, i, h1, h2, -, h3, h4, h5⟩ := C97_pace late lag ls s hr h sid d x hd hx ha
  have hc := chain_pace h3
  refine ⟨a, b, t₀, ev, k, i, h1, h2, ?_, ?_⟩
  · omega
  · rw [Nat.add_mul, Nat.one_mul]
    omega

theorem beats_ranged {late : Nat} {n s : Clock} {ls : List (Nat × Label)} (hr : Clock.Run late n ls s) (hs : s.sys.stopped = false)
    (h : Nat) (sid : UInt32) :
    (beats h sid ls).length ≤ (ranged h sid ls).length + s.sys.queue.count (.ranging h sid) := by
  have key : ∀ {n s : Clock} {ls : List (Nat × Label)}, Clock.Run late n ls s → s.sys.stopped = false →
      (beats h sid ls).length ≤ (ranged h sid ls).length + s.sys.queue.count (.ranging h sid) := by
    intro n s ls hr
    induction hr with
    | nil => intro _; exact Nat.zero_le _
    | @step r u ls t l hr hs _ _ hst ih =>
      intro hu
      have ih := ih hs
      have hsys := (clock_step hst).1
      rw [beats_append, ranged_append, List.length_append, List.length_append]
      generalize (beats h sid ls).length = nb at ih ⊢
      generalize (ranged h sid ls).length = nr at ih ⊢
      generalize hz : u.sys = z at hsys hu ⊢
      have hq : ∀ c : Command, (r.sys.queue ++ [c]).count (.ranging h sid) =
          r.sys.queue.count (.ranging h sid) + [c].count (.ranging h sid) := fun c => List.count_append
      cases hsys with
      | tick =>
        dsimp only
        rw [hq]
        rename_i x _ _
        by_cases hx : x.device = h ∧ x.session = sid
        · obtain ⟨rfl, rfl⟩ := hx
          simp [beats, ranged]
          omega
        · simp only [beats, ranged, List.filterMap_cons, List.filterMap_nil, if_neg hx, List.length_nil]
          omega
      | process hqe =>
        rw [(applyAll_frame _ _).2.1]
        rw [hqe, List.count_cons] at ih
        rename_i est c q p out hstep
        by_cases hc : c = .ranging h sid
        · subst hc
          simp [beats, ranged]
          simp at ih
          omega
        · rw [if_neg (by simpa using hc)] at ih
          simp [beats, ranged, hc]
          omega
      | panics => simp at hu
      | _ => 
        simp [beats, ranged, hq]
        omega
  exact key hr hs

/-- C97: nor are the commands lost: the rounds of an ACTIVE session processed since its start, with those that still wait in
the queue, are no fewer than the intervals that have passed, each taken `lag` longer. -/
theorem C97_rounds (late lag : Nat) (ls : List (Nat × Label)) (s : Clock) (hr : PromptRun late lag .new ls s) (h : Nat) (sid : UInt32)
    (d : Device) (x : Session) (hd : s.sys.pica.devices.get? h = some d) (hx : d.sessions.get? sid = some x)
    (ha : x.state = sessionStateActive) (hs : s.sys.stopped = false) :
    ∃ a b t₀ ev k i, ls = a ++ (t₀, .process ev) :: b ∧ .effect h (.startTimer k sid i) ∈ ev.out ∧
      lastTime ls ≤ t₀ + ((ranged h sid b).length + s.sys.queue.count (.ranging h sid) + 1) * (1000 * i.toNat + lag) := by
  obtain ⟨k, hk⟩ := live_task (prompt_run hr) hd hx ha
  obtain ⟨a, b, t₀, ev, i, hp⟩ := paced_live hr h sid k hk
  have hc := chain_pace hp.chain
  have hl := hp.now
  rw [← lastTime_run (prompt_run hr)] at hl
  have hrun := prompt_run hr
  rw [hp.split, show a ++ (t₀, Label.process ev) :: b = a ++ [(t₀, .process ev)] ++ b by simp] at hrun
  obtain ⟨r, -, hr2⟩ := clock_split hrun
  have hle : (ticks k b).length ≤ (ranged h sid b).length + s.sys.queue.count (.ranging h sid) :=
    Nat.le_trans hp.mine (beats_ranged hr2 hs h sid)
  refine ⟨a, b, t₀, ev, k, i, hp.split, hp.starts, ?_⟩
  have := Nat.mul_le_mul_right (1000 * i.toNat + lag) hle
  rw [Nat.add_mul _ 1, Nat.one_mul]
  omega

-- A schedule that meets the hypotheses of the three: session 7 of device 0 is started at 0 with an interval of 200 ms; with a lag of 500 µs it has ranged three times at 600600,
-- the third command still in the queue.
example : ∃ ls s, PromptRun 100 500 .new ls s ∧ stateNow s 0 7 = some sessionStateActive ∧ s.sys.stopped = false ∧
    ticks 4 ls = [200000, 400500, 600600] ∧ ranged 0 7 ls = [200000, 400500] ∧
    s.sys.queue.count (.ranging 0 7) = 1 ∧ lastTime ls = 600600 := by
  obtain ⟨ls, s, hr, hf⟩ := exists_promptly (late := 100) (lag := 500)
    (as := Ex.at' 0 Ex.active ++ Ex.at' 1000 [.notifies 2, .notifies 2, .notifies 2] ++
      Ex.at' 5000 [.notifies 0, .notifies 0, .notifies 0] ++ Ex.at' 200000 [.tick 0, .process] ++
      Ex.at' 400500 [.tick 0, .process] ++ Ex.at' 600600 [.tick 0])
    (f := fun ls s => decide (stateNow s 0 7 = some sessionStateActive) && decide (s.sys.stopped = false) &&
      decide (ticks 4 ls = [200000, 400500, 600600]) && decide (ranged 0 7 ls = [200000, 400500]) &&
      decide (s.sys.queue.count (.ranging 0 7) = 1) && decide (lastTime ls = 600600))
    (by decide +kernel)
  simp only [Bool.and_eq_true, decide_eq_true_eq] at hf
  exact ⟨ls, s, hr, hf.1.1.1.1.1, hf.1.1.1.1.2, hf.1.1.1.2, hf.1.1.2, hf.1.2, hf.2⟩

-- A machine with a lag of 400 µs cannot take that long.
example : promptly 100 400 .new [] (Ex.at' 0 Ex.active ++ Ex.at' 1000 [.notifies 2, .notifies 2, .notifies 2] ++
    Ex.at' 5000 [.notifies 0, .notifies 0, .notifies 0] ++ Ex.at' 200000 [.tick 0, .process] ++
    Ex.at' 400500 [.tick 0]) = none := by decide +kernel

end Pica.Props

import Verif.Props.Rate
import Verif.Props.Params
import Verif.Proofs.CarefulExamples
/-! C84: the rate of a session in terms of the RANGING_DURATION the host has configured. -/

namespace Pica
open Spec

/-- SESSION_START takes the interval of its task from the parameters of the session. -/
theorem exec_interval {d d' : Device} {tid : Nat} {c : Cmd} {r : Rsp} {e : List Effect}
    (h : d.exec tid c = .ok (d', r, e)) {k : Nat} {sid : UInt32} {i : UInt32} (hm : Effect.startTimer k sid i ∈ e) :
    ∃ s, c = .sessionStart sid ∧ d.sessions.get? sid = some s ∧ s.appConfig.rangingDuration = i := by
  have hk : (k, sid) ∈ starts e := List.mem_filterMap.mpr ⟨_, hm, rfl⟩
  rcases exec_starts h with h1 | ⟨x, rfl, h1⟩
  · rw [h1] at hk; cases hk
  · rw [h1] at hk
    obtain ⟨rfl, rfl⟩ := Prod.mk.inj (List.mem_singleton.mp hk)
    change d.sessionStart k sid = _ at h
    unfold Device.sessionStart at h
    split at h
    · cases h; cases hm
    · rename_i s hs
      split at h
      · cases h; cases hm
      · split at h
        · cases h
        · rw [show e = _ from (congrArg (fun z => z.2.2) (Except.ok.inj h)).symm] at hm
          have hm' : _ ∈ Effect.startTimer k sid (Session.setState _ _ _).1.appConfig.rangingDuration ::
            ((Session.setState _ _ _).2 ++ (Device.setState _ _).2) := hm
          rcases List.mem_cons.mp hm' with h2 | h2
          · refine ⟨s, rfl, hs, ?_⟩
            rw [(Effect.startTimer.inj h2).2.2]
            unfold Session.setState
            split <;> rfl
          · exfalso
            rcases List.mem_append.mp h2 with h3 | h3
            · unfold Session.setState at h3
              split at h3 <;> simp at h3
            · unfold Device.setState at h3
              split at h3 <;> simp at h3

theorem step_interval {p p' : Pica} {env : Env} {c : Command} {out : List Out} (hi : p.PInv)
    (hst : p.step env c = .ok (p', out)) {h k : Nat} {sid : UInt32} {i : UInt32}
    (hm : Effect.startTimer k sid i ∈ effectsOf h out) :
    ∃ bytes d s, c = .uciPacket h bytes ∧ IsCmd bytes (.sessionStart sid) ∧ p.devices.get? h = some d ∧
      d.sessions.get? sid = some s ∧ s.appConfig.rangingDuration = i := by
  have hk : (k, h, sid) ∈ startsOut out := mem_startsOut.mpr (List.mem_filterMap.mpr ⟨_, hm, rfl⟩)
  cases c with
  | uciPacket y bytes =>
    cases hd : p.devices.get? y with
    | none =>
      rw [Props.uci_absent hd] at hst
      rw [show out = [] from (congrArg Prod.snd (Except.ok.inj hst)).symm] at hm
      cases hm
    | some d =>
      rw [Props.uci_step hd] at hst
      cases hx : d.receivePacket env.tid bytes with
      | error z => rw [hx] at hst; cases hst
      | ok z =>
        obtain ⟨d', r, e⟩ := z
        rw [hx] at hst
        have hout : out = (r.map (.send y)).toList ++ e.map (.effect y) :=
          (congrArg Prod.snd (Except.ok.inj hst)).symm
        rw [hout] at hm
        rw [Pica.effectsOf_append, Pica.effectsOf_map, show effectsOf h (r.map (Out.send y)).toList = [] by cases r <;> rfl,
          List.nil_append] at hm
        by_cases hy : y = h
        · subst hy
          rw [if_pos rfl] at hm
          cases receive_ok hx with
          | cmd _ c _ rsp _ hc hr hexec hf =>
            obtain ⟨s, rfl, h1, h2⟩ := exec_interval hexec hm
            exact ⟨bytes, d, s, rfl, hc, hd, h1, h2⟩
          | _ => cases hm
        · rw [if_neg hy] at hm; cases hm
  | _ =>
    exfalso
    rw [Pica.step_noStarts hi hst (by simp)] at hk
    cases hk

end Pica

namespace Pica.Props
open Spec System SessionState

/-- C84: the task of a session sleeps for the RANGING_DURATION (0x09) the session has when it is started. -/
theorem C84_interval (p p' : Pica) (hp : p.Reachable) (env : Env) (c : Command) (out : List Out)
    (hst : p.step env c = .ok (p', out)) (h k : Nat) (sid i : UInt32) (hm : Out.effect h (.startTimer k sid i) ∈ out) :
    ∃ bytes d s, c = .uciPacket h bytes ∧ IsCmd bytes (.sessionStart sid) ∧ p.devices.get? h = some d ∧
      d.sessions.get? sid = some s ∧ View.of s.appConfig 0x09 = some (u32le i) := by
  obtain ⟨bytes, d, s, h1, h2, h3, h4, rfl⟩ := step_interval (Pica.reachable_inv hp) hst
    (List.mem_filterMap.mpr ⟨_, hm, if_pos rfl⟩)
  exact ⟨bytes, d, s, h1, h2, h3, h4, rfl⟩

/-- A parameter has the value it had or one of those applied. -/
theorem applied_origin {w w' : View} {l : List (UInt8 × Bytes)} {bad : List UInt8} (ha : Applied w l w' bad)
    {id : UInt8} (hid : id ≠ 0x2b) : w' id = w id ∨ ∃ v, (id, v) ∈ l ∧ w' id = some v := by
  induction ha with
  | nil => exact .inl rfl
  | @good w w' x v l bad _ _ _ ih =>
    rcases ih with h1 | ⟨v', h1, h2⟩
    · by_cases hx : id = x
      · subst hx
        refine .inr ⟨v, List.mem_cons_self, ?_⟩
        rw [h1]
        simp [kept, hid]
      · exact .inl (h1.trans (if_neg hx))
    · exact .inr ⟨v', List.mem_cons_of_mem _ h1, h2⟩
  | bad _ _ _ ih =>
    rcases ih with h1 | ⟨v', h1, h2⟩
    · exact .inl h1
    · exact .inr ⟨v', List.mem_cons_of_mem _ h1, h2⟩

/-- The host asks for no RANGING_DURATION (0x09) of the session that is below `m` microseconds. -/
def AsksAtLeast (m : Nat) (h : Nat) (sid : UInt32) (ls : List (Nat × Label)) : Prop :=
  ∀ t ev bytes l j, (t, .process ev) ∈ ls → ev.command = .uciPacket h bytes → IsCmd bytes (.sessionSetAppConfig sid l) →
    (0x09, u32le j) ∈ params l → m ≤ 1000 * j.toNat

theorem interval_kept {late m h : Nat} {sid : UInt32} {ls : List (Nat × Label)} {s : Clock} (hr : Clock.Run late .new ls s)
    (hm : m ≤ 200000) (ha : AsksAtLeast m h sid ls) :
    (∀ d x, s.sys.pica.devices.get? h = some d → d.sessions.get? sid = some x →
      m ≤ 1000 * x.appConfig.rangingDuration.toNat) ∧ ∀ j ∈ intervals h sid ls, m ≤ 1000 * j := by
  induction hr with
  | nil => exact ⟨fun d x h1 _ => (by cases h1), fun j hj => (by cases hj)⟩
  | @step r u ls t l hr hns hnow hnaps hst ih =>
    obtain ⟨ih1, ih2⟩ := ih fun t ev bytes l j h1 => ha t ev bytes l j (List.mem_append_left _ h1)
    have hreach := pica_reachable ⟨_, clock_run hr⟩
    have hi := Pica.reachable_inv hreach
    have hs := (clock_step hst).1
    have happ : intervals h sid (ls ++ [(t, l)]) = intervals h sid ls ++ intervals h sid [(t, l)] := by
      unfold intervals; exact List.flatMap_append
    have hother : u.sys.pica = r.sys.pica → intervals h sid [(t, l)] = [] →
        (∀ d x, u.sys.pica.devices.get? h = some d → d.sessions.get? sid = some x →
          m ≤ 1000 * x.appConfig.rangingDuration.toNat) ∧ ∀ j ∈ intervals h sid (ls ++ [(t, l)]), m ≤ 1000 * j := by
      intro h1 h2
      rw [happ, h2, List.append_nil, h1]
      exact ⟨ih1, ih2⟩
    generalize hu : u.sys = us at hs hother ⊢
    generalize hrs : r.sys = rs at hs hother ih1 hi
    cases l with
    | process ev =>
      have hstep := (process_pica hs).1
      refine ⟨fun d x h1 h2 => ?_, fun j hj => ?_⟩
      · rcases C56_origin _ _ _ _ _ hstep h d h1 sid x h2 with ⟨d₀, s₀, h3, h4, h5⟩ | ⟨bytes, hc, h3⟩
        · rw [h5]; exact ih1 d₀ s₀ h3 h4
        · rcases h3 with ⟨-, h3⟩ | ⟨d₀, s₀, h3, h4, h5⟩
          · rw [h3]; exact hm
          · have h6 : View.of x.appConfig 0x09 = some (u32le x.appConfig.rangingDuration) := rfl
            have h7 : View.of s₀.appConfig 0x09 = some (u32le s₀.appConfig.rangingDuration) := rfl
            have hold : View.of x.appConfig 0x09 = View.of s₀.appConfig 0x09 →
                m ≤ 1000 * x.appConfig.rangingDuration.toNat := by
              intro h8
              rw [h6, h7] at h8
              have h9 := congrArg ofLe (Option.some.inj h8)
              rw [ofLe_u32le, ofLe_u32le] at h9
              rw [h9]
              exact ih1 d₀ s₀ h3 h4
            rcases h5 with ⟨l, h8, h9⟩ | ⟨a, q, h8, h9⟩
            · rcases applied_origin h9 (id := 0x09) (by decide) with h10 | ⟨v, h10, h11⟩
              · exact hold h10
              · rw [h6] at h11
                cases h11
                exact ha t ev bytes l _ (by simp) hc h8 h10
            · exact hold (h9 0x09 (by decide) (by decide))
      · rw [happ] at hj
        rcases List.mem_append.mp hj with hj | hj
        · exact ih2 j hj
        · simp only [intervals, List.flatMap_cons, List.flatMap_nil, List.append_nil, List.mem_filterMap] at hj
          obtain ⟨e, he, hj⟩ := hj
          split at hj
          · split at hj
            · rename_i hx
              cases hj
              subst hx
              obtain ⟨_, d, s, -, -, h3, h4, rfl⟩ := step_interval hi hstep he
              exact ih1 d s h3 h4
            · cases hj
          · cases hj
    | shuffle =>
      cases hs with
      | shuffle hro =>
        refine ⟨fun d x h1 h2 => ?_, ?_⟩
        · rcases (Pica.reorder_dev hi hro).2.2.2 h with e | ⟨d₀, l, h3, hp, h4⟩
          · exact ih1 d x (e ▸ h1) h2
          · rw [h4] at h1
            cases h1
            change AMap.get? l sid = _ at h2
            rw [AMap.get?_perm (hi.dev h d₀ h3).2.2.2.nodup hp] at h2
            exact ih1 d₀ x h3 h2
        · rw [happ]
          simpa [intervals] using ih2
    | _ => cases hs; exact hother rfl rfl

/-- C84: a session whose host never asks for a RANGING_DURATION below `m` microseconds, and `m` is at most the default of
200 ms, ranges at most once in `m` per activation of the session, apart from one command for each start. -/
theorem C84_configured (late : Nat) (ls : List (Nat × Label)) (s : Clock) (hr : Clock.Run late .new ls s) (h : Nat)
    (sid : UInt32) (m : Nat) (hm : m ≤ 200000) (ha : AsksAtLeast m h sid ls) :
    m * (beats h sid ls).length ≤ lastTime ls + m * (intervals h sid ls).length ∧
    m * (infoNumbers h sid (processed (ls.map Prod.snd))).length ≤ lastTime ls + m * (intervals h sid ls).length :=
  ⟨C84_rate late ls s hr h sid m (interval_kept hr hm ha).2, C84_ntfs late ls s hr h sid m (interval_kept hr hm ha).2⟩

/-- `AsksAtLeast`, computed. -/
def asksB (m h : Nat) (sid : UInt32) (ls : List (Nat × Label)) : Bool :=
  ls.all fun
    | (_, .process ⟨_, .uciPacket k bytes, _⟩) => match Ex.readCmd bytes with
      | some (.sessionSetAppConfig x l) =>
        !(decide (k = h) && decide (x = sid)) || (params l).all fun y => !(decide (y.1 = 0x09)) || decide (m ≤ 1000 * ofLe y.2)
      | _ => true
    | _ => true

theorem asksB_sound {m h : Nat} {sid : UInt32} {ls : List (Nat × Label)} (hb : asksB m h sid ls = true) :
    AsksAtLeast m h sid ls := by
  intro t ev bytes l j h1 h2 h3 h4
  obtain ⟨env, c, out⟩ := ev
  cases h2
  have h5 := List.all_eq_true.mp hb _ h1
  simp only [Ex.isCmd_read.mp h3, decide_true, Bool.and_self, Bool.not_true, Bool.false_or] at h5
  have h6 := List.all_eq_true.mp h5 _ h4
  simpa [ofLe_u32le] using h6

/-- A session configured for rounds of 100 ms ranges three times in 300.5 ms. -/
example : ∃ ls s, Clock.Run 100 .new ls s ∧ AsksAtLeast 100000 0 7 ls ∧ ¬AsksAtLeast 200000 0 7 ls ∧
    intervals 0 7 ls = [100] ∧ beats 0 7 ls = [100000, 200100, 300500] ∧
    infoNumbers 0 7 (processed (ls.map Prod.snd)) = [0, 1, 2] ∧ lastTime ls = 300500 := by
  obtain ⟨ls, s, hr, hf⟩ := Ex.exists_clocked (late := 100)
    (as := Ex.at' 0 ([.request .connect, .process] ++ Ex.send 0 Ex.reset ++ Ex.send 0 (Ex.sessionInit 7 1) ++
        Ex.send 0 (Ex.setApp 7 9 (Ex.controller ++ [0x09, 4, 100, 0, 0, 0])) ++ Ex.send 0 (Ex.start 7)) ++
      Ex.at' 1000 [.notifies 2, .notifies 2, .notifies 2] ++
      Ex.at' 5000 [.notifies 0, .notifies 0, .notifies 0] ++ Ex.at' 100000 [.tick 0, .process] ++
      Ex.at' 200100 [.tick 0, .process] ++ Ex.at' 300500 [.tick 0, .process])
    (f := fun ls _ => asksB 100000 0 7 ls && decide (intervals 0 7 ls = [100]) &&
      decide (beats 0 7 ls = [100000, 200100, 300500]) &&
      decide (infoNumbers 0 7 (processed (ls.map Prod.snd)) = [0, 1, 2]) && decide (lastTime ls = 300500))
    (by decide +kernel)
  simp only [Bool.and_eq_true, decide_eq_true_eq] at hf
  obtain ⟨⟨⟨⟨h1, h2⟩, h3⟩, h4⟩, h5⟩ := hf
  refine ⟨ls, s, hr, asksB_sound h1, fun hc => ?_, h2, h3, h4, h5⟩
  have := (C84_configured 100 ls s hr 0 7 200000 (by decide) hc).1
  rw [h2, h3, h5] at this
  exact absurd this (by decide)

end Pica.Props

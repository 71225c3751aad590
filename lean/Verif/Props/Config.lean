import Verif.Spec.Config
import Verif.Props.Registry
import Verif.Props.Dispatch
/-! C49: the device configuration. -/

set_option linter.dupNamespace false

namespace Pica.Props
open Spec Pica

theorem id_deviceState (p : ConfigParameterId) : p = .deviceState ↔ p.code = 0x00 := by
  cases p; simp [ConfigParameterId.deviceState]
theorem id_lowPower (p : ConfigParameterId) : p = .lowPowerMode ↔ p.code = 0x01 := by
  cases p; simp [ConfigParameterId.lowPowerMode]

theorem setConfig_eq (c : DeviceConfig) (ps : List ConfigParameter) :
    Device.setConfigLoop c ps = ({ c with lowPowerMode := ps.foldl setPower c.lowPowerMode }, ps.filterMap refusal) := by
  induction ps generalizing c with
  | nil => rfl
  | cons p ps ih =>
    unfold Device.setConfigLoop
    simp only [ih, List.foldl_cons, List.filterMap_cons]
    unfold Device.setConfigParam refusal setPower
    simp only [id_deviceState, id_lowPower]
    by_cases h0 : p.id.code = 0x00
    · rw [if_pos h0, if_pos h0, if_neg (by rw [h0]; decide)]; rfl
    · rw [if_neg h0, if_neg h0]
      by_cases h1 : p.id.code = 0x01
      · rw [if_pos h1, if_pos h1, if_pos h1]
        cases hv : p.value with
        | nil => rfl
        | cons b l =>
          have : (Option.getD (b :: l).head? 1 != 0) = decide (b ≠ 0) := by
            show (!(b == 0)) = _
            rw [show (b == 0) = decide (b = 0) from rfl, decide_not]
          rw [this]; rfl
      · rw [if_neg h1, if_neg h1, if_neg h1]; rfl

theorem getConfig_eq (d : Device) (ids : List ConfigParameterId) (he : d.config.deviceState = .deviceStateError) :
    d.coreGetConfig ids = (d, (if ∀ i ∈ ids, i.code = 0x00 ∨ i.code = 0x01 then
        .coreGetConfig .ok (ids.map fun i => ⟨i, [if i.code = 0x00 then 0xff else if d.config.lowPowerMode then 1 else 0]⟩)
       else .coreGetConfig .invalidParam ((ids.filter fun i => decide (¬(i.code = 0x00 ∨ i.code = 0x01))).map fun i => ⟨i, []⟩)), []) := by
  have hget : ∀ i : ConfigParameterId, Device.getConfigParam d.config i = if i.code = 0x00 ∨ i.code = 0x01 then
      some [if i.code = 0x00 then 0xff else if d.config.lowPowerMode then 1 else 0] else none := by
    intro i
    unfold Device.getConfigParam
    simp only [id_deviceState, id_lowPower, he]
    by_cases h0 : i.code = 0x00
    · simp only [h0, if_true, true_or]; rfl
    · by_cases h1 : i.code = 0x01
      · simp only [h1, if_true, or_true]; rfl
      · simp only [h0, h1, if_false, or_self]
  have hinv : (ids.filterMap fun i => if (Device.getConfigParam d.config i).isSome then none else some (⟨i, []⟩ : ConfigParameter)) =
      (ids.filter fun i => decide (¬(i.code = 0x00 ∨ i.code = 0x01))).map fun i => ⟨i, []⟩ := by
    induction ids with
    | nil => rfl
    | cons i ids ih =>
      rw [List.filterMap_cons, List.filter_cons, ih, hget]
      by_cases h : i.code = 0x00 ∨ i.code = 0x01
      · simp only [h, if_true, not_true, decide_false, Option.isSome_some, Bool.false_eq_true, if_false]
      · simp only [h, if_true, not_false_iff, decide_true, Option.isSome_none, Bool.false_eq_true, if_false, List.map_cons]
  unfold Device.coreGetConfig
  simp only [hinv, List.isEmpty_iff, List.map_eq_nil_iff, List.filter_eq_nil_iff, decide_eq_true_eq, not_not]
  by_cases hall : ∀ i ∈ ids, i.code = 0x00 ∨ i.code = 0x01
  · rw [if_pos hall, if_pos hall]
    congr 3
    clear hinv
    induction ids with
    | nil => rfl
    | cons i ids ih =>
      rw [List.filterMap_cons, hget, if_pos (hall i (List.mem_cons_self ..)), List.map_cons,
        ih fun j hj => hall j (List.mem_cons_of_mem _ hj)]
      rfl
  · rw [if_neg hall, if_neg hall]

/-- Only SET_CONFIG and a reset change the configuration. -/
theorem exec_config {d d' : Device} {tid : Nat} {c : Cmd} {r : Rsp} {e : List Effect} (h : d.exec tid c = .ok (d', r, e)) :
    ((∃ rc, c = .coreDeviceReset rc) ∧ d'.config = .default) ∨
    (∃ ps, c = .coreSetConfig ps ∧ d'.config = { d.config with lowPowerMode := ps.foldl setPower d.config.lowPowerMode } ∧
      ∃ st l, r = .coreSetConfig st l) ∨
    ((∀ rc, c ≠ .coreDeviceReset rc) ∧ (∀ ps, c ≠ .coreSetConfig ps) ∧ d'.config = d.config) := by
  cases c with
  | coreDeviceReset rc =>
    cases h
    refine .inl ⟨⟨rc, rfl⟩, ?_⟩
    rfl
  | coreSetConfig ps =>
    change d.coreSetConfig ps = _ at h
    unfold Device.coreSetConfig at h
    split at h
    · rw [setConfig_eq] at h
      cases h
      exact .inr (.inl ⟨ps, rfl, rfl, _, _, rfl⟩)
    · cases h
  | coreGetDeviceInfo =>
    refine .inr (.inr ⟨by simp, by simp, ?_⟩)
    change d.coreGetDeviceInfo = _ at h
    unfold Device.coreGetDeviceInfo at h
    split at h <;> cases h; rfl
  | coreGetCapsInfo => cases h; exact .inr (.inr ⟨by simp, by simp, rfl⟩)
  | coreGetConfig ids => cases h; exact .inr (.inr ⟨by simp, by simp, rfl⟩)
  | sessionGetCount => cases h; exact .inr (.inr ⟨by simp, by simp, rfl⟩)
  | androidGetPowerStats => cases h; exact .inr (.inr ⟨by simp, by simp, rfl⟩)
  | androidSetCountryCode cc => cases h; exact .inr (.inr ⟨by simp, by simp, rfl⟩)
  | sessionInit x ty =>
    refine .inr (.inr ⟨by simp, by simp, ?_⟩)
    change Except.ok (d.sessionInit x ty) = _ at h
    unfold Device.sessionInit at h
    split at h
    · cases h; rfl
    · split at h <;> cases h <;> rfl
  | sessionDeinit x =>
    refine .inr (.inr ⟨by simp, by simp, ?_⟩)
    change d.sessionDeinit x = _ at h
    unfold Device.sessionDeinit at h
    split at h
    · split at h
      · cases hr : d.releaseActive with
        | error z => rw [hr] at h; cases h
        | ok z =>
          rw [hr] at h
          obtain ⟨-, st, hz, -⟩ := Device.releaseActive_eq (e := z.2) (d' := z.1) hr
          have := Except.ok.inj (show Except.ok _ = _ from h)
          have hc : z.1.config = d'.config := congrArg (fun w => w.1.config) this
          rw [← hc, hz]
      · cases h; rfl
    · cases h; rfl
  | sessionSetAppConfig x l =>
    refine .inr (.inr ⟨by simp, by simp, ?_⟩)
    change d.sessionSetAppConfig x l = _ at h
    unfold Device.sessionSetAppConfig at h
    split at h
    · cases h; rfl
    · rename_i s hs
      split at h
      · cases h
      · split at h
        · cases h; rfl
        · split at h
          · cases h; rfl
          · cases hl : Device.setAppConfigLoop s.appConfig l with
            | error z => rw [hl] at h; cases h
            | ok z =>
              rw [hl] at h
              simp only [bind, Except.bind] at h
              split at h
              · cases h; rfl
              · split at h
                · cases h; rfl
                · cases h; rfl
  | sessionGetAppConfig x ids =>
    refine .inr (.inr ⟨by simp, by simp, ?_⟩)
    change Except.ok (d.sessionGetAppConfig x ids) = _ at h
    unfold Device.sessionGetAppConfig at h
    split at h <;> cases h <;> rfl
  | sessionGetState x =>
    refine .inr (.inr ⟨by simp, by simp, ?_⟩)
    change Except.ok (d.sessionGetState x) = _ at h
    unfold Device.sessionGetState at h
    split at h <;> cases h <;> rfl
  | sessionUpdateMulticast x a q =>
    refine .inr (.inr ⟨by simp, by simp, ?_⟩)
    change Except.ok (d.sessionUpdateMulticast x a q) = _ at h
    unfold Device.sessionUpdateMulticast at h
    split at h
    · cases h; rfl
    · split at h
      · cases h; rfl
      · split at h
        · cases h; rfl
        · cases h; rfl
  | sessionStart x =>
    refine .inr (.inr ⟨by simp, by simp, ?_⟩)
    change d.sessionStart tid x = _ at h
    unfold Device.sessionStart at h
    split at h
    · cases h; rfl
    · split at h
      · cases h; rfl
      · split at h
        · cases h
        · cases h
          show (Device.setState _ _).1.config = _
          rw [Device.setState_eq]; rfl
  | sessionStop x =>
    refine .inr (.inr ⟨by simp, by simp, ?_⟩)
    change d.sessionStop x = _ at h
    unfold Device.sessionStop at h
    split at h
    · cases h; rfl
    · split at h
      · cases h; rfl
      · simp only [bind, Except.bind] at h
        split at h
        · cases h
        · rename_i z hr
          obtain ⟨-, st, hz, -⟩ := Device.releaseActive_eq (e := z.2) (d' := z.1) hr
          cases h
          show z.1.config = _
          rw [hz]; rfl
  | sessionGetRangingCount x =>
    refine .inr (.inr ⟨by simp, by simp, ?_⟩)
    change Except.ok (d.sessionGetRangingCount x) = _ at h
    unfold Device.sessionGetRangingCount at h
    split at h <;> cases h <;> rfl

theorem stopInBand_config (d : Device) (mac : MacAddress) (x : UInt32) : (d.stopInBand mac x).1.config = d.config := by
  unfold Device.stopInBand
  split
  · rfl
  · split
    · rfl
    · split
      · dsimp only
        split
        · rw [Device.setState_eq]; rfl
        · rfl
      · rfl

/-- What a step does to the configuration of device `h`. -/
theorem step_config {p p' : Pica} {env : Env} {c : Command} {out : List Out} {h : Nat} {d' : Device} (hi : Pica.PInv p)
    (hs : p.step env c = .ok (p', out)) (hd' : p'.devices.get? h = some d') :
    (Resets h ⟨env, c, out⟩ ∧ d'.config = .default) ∨
    ∃ d, p.devices.get? h = some d ∧ ¬Resets h ⟨env, c, out⟩ ∧
      ((∃ ps, Configures h ⟨env, c, out⟩ ps ∧
        d'.config = { d.config with lowPowerMode := ps.foldl setPower d.config.lowPowerMode }) ∨
       ((∀ ps, ¬Configures h ⟨env, c, out⟩ ps) ∧ d'.config = d.config)) := by
  have hsaid := (step_said hi hs).1
  have hev : ∀ m, Out.event (.connected h m) ∈ out → PicaEvent.connected h m ∈ said p c := by
    intro m hm
    rw [← hsaid]
    exact List.mem_filterMap.mpr ⟨_, hm, rfl⟩
  have other : (∀ bytes, c ≠ .uciPacket h bytes) → (∀ m, PicaEvent.connected h m ∉ said p c) → (∃ d, p.devices.get? h = some d ∧ d'.config = d.config) →
      (Resets h ⟨env, c, out⟩ ∧ d'.config = .default) ∨
      ∃ d, p.devices.get? h = some d ∧ ¬Resets h ⟨env, c, out⟩ ∧
        ((∃ ps, Configures h ⟨env, c, out⟩ ps ∧
          d'.config = { d.config with lowPowerMode := ps.foldl setPower d.config.lowPowerMode }) ∨
         ((∀ ps, ¬Configures h ⟨env, c, out⟩ ps) ∧ d'.config = d.config)) := by
    rintro h1 h2 ⟨d, hd, he⟩
    refine .inr ⟨d, hd, ?_, .inr ⟨?_, he⟩⟩
    · rintro (⟨m, hm⟩ | ⟨b, rc, hc, -⟩)
      · exact h2 m (hev m hm)
      · exact h1 b hc
    · rintro ps ⟨b, -, -, hc, -⟩; exact h1 b hc
  cases c with
  | connect =>
    by_cases hh : h = p.counter
    · subst hh
      cases hs
      left
      refine ⟨.inl ⟨_, List.mem_append_right _ (List.mem_singleton.mpr rfl)⟩, ?_⟩
      change AMap.get? (AMap.insert p.devices p.counter _) p.counter = _ at hd'
      rw [AMap.get?_insert_self] at hd'
      cases hd'
      rfl
    · refine other (by simp) (by simp [said, hh]) ⟨d', ?_, rfl⟩
      cases hs
      change AMap.get? (AMap.insert p.devices p.counter _) h = _ at hd'
      rwa [AMap.get?_insert_of_ne hh] at hd'
  | disconnect x =>
    refine other (by simp) ?_ ⟨d', ?_, rfl⟩
    · unfold said
      dsimp only
      cases p.devices.get? x <;> simp
    · change Except.ok (p.disconnect x) = _ at hs
      unfold Pica.disconnect at hs
      split at hs <;> cases hs
      · change AMap.get? (AMap.erase _ _) _ = _ at hd'
        by_cases hx : h = x
        · subst hx; rw [AMap.get?_erase_self] at hd'; cases hd'
        · rwa [AMap.get?_erase_of_ne hx] at hd'
      · exact hd'
  | ranging x y =>
    refine other (by simp) (by simp [said]) ?_
    obtain ⟨d, s, ms, o, hd, -, -, -, -, -, hout⟩ := round_ok hi hs
    by_cases hx : h = x
    · subst hx
      refine ⟨d, hd, ?_⟩
      rcases hout with ⟨-, rfl, -, rfl⟩ | ⟨-, rfl, rfl⟩
      · change AMap.get? (AMap.insert p.devices h _) h = _ at hd'
        rw [AMap.get?_insert_self] at hd'; cases hd'; rfl
      · change AMap.get? (AMap.insert p.devices h _) h = _ at hd'
        rw [AMap.get?_insert_self] at hd'; cases hd'; rfl
    · refine ⟨d', ?_, rfl⟩
      rcases hout with ⟨-, rfl, -, rfl⟩ | ⟨-, rfl, rfl⟩
      · change AMap.get? (AMap.insert p.devices x _) h = _ at hd'
        rwa [AMap.get?_insert_of_ne hx] at hd'
      · change AMap.get? (AMap.insert p.devices x _) h = _ at hd'
        rwa [AMap.get?_insert_of_ne hx] at hd'
  | stopRanging mac y =>
    refine other (by simp) (by simp [said]) ?_
    cases hs
    change AMap.get? (p.devices.map fun e => (e.1, (e.2.stopInBand mac y).1)) h = _ at hd'
    rw [Pica.get?_map_values p.devices (fun d => (Device.stopInBand d mac y).1)] at hd'
    obtain ⟨d, hd, rfl⟩ := Option.map_eq_some_iff.mp hd'
    exact ⟨d, hd, stopInBand_config ..⟩
  | createAnchor mac =>
    refine other (by simp) (by simp [said]) ⟨d', ?_, rfl⟩
    change p.createAnchor mac = _ at hs
    unfold Pica.createAnchor at hs
    split at hs
    · cases hs; exact hd'
    · split at hs <;> cases hs
      exact hd'
  | destroyAnchor mac =>
    refine other (by simp) (by simp [said]) ⟨d', ?_, rfl⟩
    change Except.ok (p.destroyAnchor mac) = _ at hs
    unfold Pica.destroyAnchor at hs
    split at hs <;> cases hs <;> exact hd'
  | uciPacket x bytes =>
    by_cases hx : x = h
    · subst hx
      change p.uciPacket env x bytes = _ at hs
      unfold Pica.uciPacket at hs
      cases hd : p.devices.get? x with
      | none => rw [hd] at hs; cases hs; rw [hd] at hd'; cases hd'
      | some d =>
        simp only [hd, bind, Except.bind] at hs
        split at hs
        · cases hs
        · rename_i y hy
          obtain ⟨d₁, o, es⟩ := y
          cases hs
          change AMap.get? (AMap.insert p.devices x d₁) x = _ at hd'
          rw [AMap.get?_insert_self] at hd'
          cases hd'
          have hsent : sentTo x ((o.map (.send x)).toList ++ es.map (.effect x)) = o.toList := by
            rw [sentTo_append, sentTo_map, List.append_nil]
            cases o with
            | none => rfl
            | some q => simp [sentTo_send]
          have hno : (∀ r, o ≠ some (.rsp r)) → d'.config = d.config →
              ∃ d₀, some d = some d₀ ∧ ¬Resets x ⟨env, .uciPacket x bytes, (o.map (.send x)).toList ++ es.map (.effect x)⟩ ∧
              ((∃ ps, Configures x ⟨env, .uciPacket x bytes, (o.map (.send x)).toList ++ es.map (.effect x)⟩ ps ∧
                d'.config = { d₀.config with lowPowerMode := ps.foldl setPower d₀.config.lowPowerMode }) ∨
              ((∀ ps, ¬Configures x ⟨env, .uciPacket x bytes, (o.map (.send x)).toList ++ es.map (.effect x)⟩ ps) ∧
                d'.config = d₀.config)) := by
            intro h1 he
            refine ⟨d, rfl, ?_, .inr ⟨?_, he⟩⟩
            · rintro (⟨m, hm⟩ | ⟨b, rc, hc, hrc⟩)
              · exact absurd (hev m hm) (by simp [said])
              · cases hc
                rw [receive_cmd (.inr ⟨rc, rfl⟩) hrc] at hy
                have hy' := Except.ok.inj (show Except.ok _ = _ from hy)
                exact h1 _ (congrArg (fun z => z.2.1) hy').symm
            · rintro ps ⟨b, st, l, -, -, hm⟩
              rw [hsent] at hm
              exact h1 _ (Option.mem_toList.mp hm)
          cases receive_ok hy with
          | ignored => exact .inr (hno (by simp) rfl)
          | refused b r q _ hq => exact .inr (hno (fun r e => hq.1 r (Option.some.inj e)) rfl)
          | early => exact .inr (hno (by simp) rfl)
          | rcv => exact .inr (hno (by simp) rfl)
          | snd _ m _ n hsnd hd₁ =>
            refine .inr (hno (by simp) ?_)
            rcases hd₁ with ⟨-, rfl, -⟩ | ⟨s, s', -, -, rfl⟩ <;> rfl
          | cmd _ c _ rsp _ hc hr hx hf =>
            have hnr : (∀ rc, c ≠ .coreDeviceReset rc) →
                ¬Resets x ⟨env, .uciPacket x bytes, ((some (Packet.rsp rsp)).map (.send x)).toList ++ es.map (.effect x)⟩ := by
              rintro h1 (⟨m, hm⟩ | ⟨b, rc, hc', hrc⟩)
              · exact absurd (hev m hm) (by simp [said])
              · cases hc'; exact h1 rc (isCmd_unique hc hrc)
            rcases exec_config hx with ⟨⟨rc, rfl⟩, he⟩ | ⟨ps, rfl, he, st, l, rfl⟩ | ⟨h1, h2, he⟩
            · exact .inl ⟨.inr ⟨bytes, rc, rfl, hc⟩, he⟩
            · refine .inr ⟨d, rfl, hnr (by simp), .inl ⟨ps, ⟨bytes, st, l, rfl, hc, ?_⟩, he⟩⟩
              rw [hsent]; simp
            · refine .inr ⟨d, rfl, hnr h1, .inr ⟨?_, he⟩⟩
              rintro ps ⟨b, -, -, hb, hcm, -⟩
              cases hb
              exact h2 ps (isCmd_unique hc hcm)
    · refine other (by simp [hx]) (by simp [said]) ⟨d', ?_, rfl⟩
      change p.uciPacket env x bytes = _ at hs
      unfold Pica.uciPacket at hs
      split at hs
      · cases hs; exact hd'
      · simp only [bind, Except.bind] at hs
        split at hs
        · cases hs
        · cases hs
          change AMap.get? (AMap.insert p.devices x _) h = _ at hd'
          rwa [AMap.get?_insert_of_ne (Ne.symm hx)] at hd'

/-- The configuration after a history. -/
theorem power_history {p : Pica} {tr : List Pica.Event} (hr : Run .new tr p) :
    ∀ h d, p.devices.get? h = some d → Power h tr d.config.lowPowerMode ∧ d.config.deviceState = .deviceStateError := by
  generalize hp₀ : Pica.new = p₀ at hr
  induction hr with
  | nil => subst hp₀; intro h d hd; cases hd
  | @reorder q r tr hrun hro ih =>
    intro h d hd
    rcases (reorder_dev (reachable_inv ⟨tr, hp₀ ▸ hrun⟩) hro).2.2.2 h with e | ⟨d₀, l, hd₀, -, hq⟩
    · exact ih h d (e ▸ hd)
    · rw [hd] at hq; cases hq; exact ih h d₀ hd₀
  | @cmd q r tr env c out hrun hs ih =>
    intro h d hd
    rcases step_config (reachable_inv ⟨tr, hp₀ ▸ hrun⟩) hs hd with ⟨hr, he⟩ | ⟨d₀, hd₀, hnr, ⟨ps, hc, he⟩ | ⟨hnc, he⟩⟩
    · rw [he]; exact ⟨.reset hr, rfl⟩
    · rw [he]; exact ⟨.set (ih h d₀ hd₀).1 hnr hc, (ih h d₀ hd₀).2⟩
    · rw [he]; exact ⟨.other (ih h d₀ hd₀).1 hnr hnc, (ih h d₀ hd₀).2⟩

theorem config_history (p : Pica) (hp : p.Reachable) (h : Nat) (d : Device) (hd : p.devices.get? h = some d) :
    d.config.deviceState = .deviceStateError := by
  obtain ⟨tr, hr⟩ := hp
  exact (power_history hr h d hd).2

/-- C49: the low power mode is that last set by SET_CONFIG since the device was connected or reset, and initially on. -/
theorem C49_last (p : Pica) (tr : List Pica.Event) (hr : Run .new tr p) (h : Nat) (d : Device) (hd : p.devices.get? h = some d)
    (v : Bool) : Power h tr v ↔ v = d.config.lowPowerMode := by
  have inv : ∀ {tr : List Pica.Event} {ev : Pica.Event} {v : Bool}, Power h (tr ++ [ev]) v →
      (Resets h ev ∧ v = true) ∨ (∃ w ps, Power h tr w ∧ ¬Resets h ev ∧ Configures h ev ps ∧ v = ps.foldl setPower w) ∨
      (Power h tr v ∧ ¬Resets h ev ∧ ∀ ps, ¬Configures h ev ps) := by
    intro tr ev v hv
    generalize ht : tr ++ [ev] = t at hv
    cases hv with
    | reset hr => obtain ⟨rfl, he⟩ := List.append_inj' ht rfl; cases he; exact .inl ⟨hr, rfl⟩
    | set hp hn hc => obtain ⟨rfl, he⟩ := List.append_inj' ht rfl; cases he; exact .inr (.inl ⟨_, _, hp, hn, hc, rfl⟩)
    | other hp hn hc => obtain ⟨rfl, he⟩ := List.append_inj' ht rfl; cases he; exact .inr (.inr ⟨hp, hn, hc⟩)
  have uniq : ∀ {tr : List Pica.Event} {v w : Bool}, Power h tr v → Power h tr w → v = w := by
    intro tr v w hv
    induction hv generalizing w with
    | reset hr =>
      intro hw
      rcases inv hw with ⟨-, rfl⟩ | ⟨-, -, -, hn, -⟩ | ⟨-, hn, -⟩
      · rfl
      · exact absurd hr hn
      · exact absurd hr hn
    | @set tr ev v ps hp hn hc ih =>
      intro hw
      rcases inv hw with ⟨hr, -⟩ | ⟨w, ps', hw', -, hc', rfl⟩ | ⟨-, -, hc'⟩
      · exact absurd hr hn
      · obtain ⟨b, -, -, hb, hcm, -⟩ := hc
        obtain ⟨b', -, -, hb', hcm', -⟩ := hc'
        rw [hb] at hb'
        cases hb'
        have := isCmd_unique hcm hcm'
        injection this with this
        rw [this, ih hw']
      · exact absurd hc (hc' ps)
    | other hp hn hc ih =>
      intro hw
      rcases inv hw with ⟨hr, -⟩ | ⟨w, ps', -, -, hc', -⟩ | ⟨hw, -, -⟩
      · exact absurd hr hn
      · exact absurd hc' (hc ps')
      · exact ih hw
  constructor
  · intro hv; exact uniq hv (power_history hr h d hd).1
  · rintro rfl; exact (power_history hr h d hd).1

/-- C49, SET_CONFIG: the parameters take effect in order; the answer lists exactly the refused ones, DEVICE_STATE as
read only and unknown ones as invalid; nothing else changes. -/
theorem C49_set (p : Pica) (env : Env) (h : Nat) (d : Device) (ps : List ConfigParameter) (hd : p.devices.get? h = some d)
    (hr : d.isReset = true) (hs : d.state = .deviceStateReady) :
    Answers p env h (.coreSetConfig ps)
      (.coreSetConfig (if ps.filterMap refusal = [] then .ok else .invalidParam) (ps.filterMap refusal))
      { d with config := { d.config with lowPowerMode := ps.foldl setPower d.config.lowPowerMode } } [] := by
  have hx : d.exec env.tid (.coreSetConfig ps) = .ok
      ({ d with config := { d.config with lowPowerMode := ps.foldl setPower d.config.lowPowerMode } },
       .coreSetConfig (if ps.filterMap refusal = [] then .ok else .invalidParam) (ps.filterMap refusal), []) := by
    show d.coreSetConfig ps = _
    unfold Device.coreSetConfig
    rw [if_pos hs, setConfig_eq]
    simp only [List.isEmpty_iff]
  refine step_cmd hd (.inl hr) hx ?_
  intro hc
  exact Nat.le_trans (List.length_filterMap_le ..) hc.1

/-- C49, GET_CONFIG: the values in order if all parameters are known, otherwise exactly the unknown ones, empty. The
device state is reported as ERROR (0xff) whatever it is, see `C49_false`. -/
theorem C49_get_partial (p : Pica) (hp : p.Reachable) (env : Env) (h : Nat) (d : Device) (ids : List ConfigParameterId)
    (hd : p.devices.get? h = some d) (hr : d.isReset = true) :
    Answers p env h (.coreGetConfig ids)
      (if ∀ i ∈ ids, i.code = 0x00 ∨ i.code = 0x01 then
        .coreGetConfig .ok (ids.map fun i => ⟨i, [if i.code = 0x00 then 0xff else if d.config.lowPowerMode then 1 else 0]⟩)
       else .coreGetConfig .invalidParam ((ids.filter fun i => decide (¬(i.code = 0x00 ∨ i.code = 0x01))).map fun i => ⟨i, []⟩))
      d [] := by
  have hx : d.exec env.tid (.coreGetConfig ids) = .ok (d,
      (if ∀ i ∈ ids, i.code = 0x00 ∨ i.code = 0x01 then
        .coreGetConfig .ok (ids.map fun i => ⟨i, [if i.code = 0x00 then 0xff else if d.config.lowPowerMode then 1 else 0]⟩)
       else .coreGetConfig .invalidParam ((ids.filter fun i => decide (¬(i.code = 0x00 ∨ i.code = 0x01))).map fun i => ⟨i, []⟩)), []) := by
    show Except.ok (d.coreGetConfig ids) = _
    rw [getConfig_eq d ids (config_history p hp h d hd)]
  refine step_cmd hd (.inl hr) hx ?_
  intro hc
  have hc' : ids.length ≤ 255 := hc
  split
  · refine ⟨by rw [List.length_map]; exact hc', ?_⟩
    intro x hx
    obtain ⟨i, -, rfl⟩ := List.mem_map.mp hx
    exact (by decide : 1 ≤ 255)
  · refine ⟨by rw [List.length_map]; exact Nat.le_trans (List.length_filter_le ..) hc', ?_⟩
    intro x hx
    obtain ⟨i, -, rfl⟩ := List.mem_map.mp hx
    exact Nat.zero_le _

/-- C49 fails: the device state reported is not that of the device. -/
theorem C49_false : ∃ p : Pica, p.Reachable ∧ ∃ d, p.devices.get? 0 = some d ∧ d.isReset = true ∧ d.state = .deviceStateReady ∧
    Answers p Ex.env 0 (.coreGetConfig [⟨0x00⟩]) (.coreGetConfig .ok [⟨⟨0x00⟩, [0xff]⟩]) d [] ∧
    DeviceState.deviceStateReady.code ≠ 0xff := by
  obtain ⟨⟨p, tr⟩, hp, hf⟩ := Ex.exists_ok
    (x := Ex.play .new [(Ex.env, .connect), Ex.pkt 0 Ex.reset])
    (f := fun x => (x.1.devices.get? 0).map fun d => (d.isReset, d.state)) (b := some (true, .deviceStateReady)) (by decide +kernel)
  obtain ⟨d, hd, hf⟩ := Option.map_eq_some_iff.mp hf
  have hr : p.Reachable := ⟨tr, Ex.play_run hp⟩
  refine ⟨p, hr, d, hd, congrArg Prod.fst hf, congrArg Prod.snd hf, ?_, by decide⟩
  exact C49_get_partial p hr Ex.env 0 d [⟨0x00⟩] hd (congrArg Prod.fst hf)

/-- SET_CONFIG with low power off, then with an unknown and the read only parameter: the answers, and GET_CONFIG. -/
example : (Ex.trace [(Ex.env, .connect), Ex.pkt 0 Ex.reset, Ex.pkt 0 (Ex.cmd 0 4 [1, 1, 1, 0]), Ex.pkt 0 (Ex.cmd 0 4 [2, 7, 0, 0, 1, 5]),
      Ex.pkt 0 (Ex.cmd 0 5 [1, 1]), Ex.pkt 0 (Ex.cmd 0 5 [2, 1, 9])]).flatMap (fun ev => sentTo 0 ev.out) =
    [.rsp (.coreDeviceReset .ok), .rsp (.coreSetConfig .ok []),
     .rsp (.coreSetConfig .invalidParam [⟨⟨7⟩, .invalidParam⟩, ⟨⟨0⟩, .readOnly⟩]),
     .rsp (.coreGetConfig .ok [⟨⟨1⟩, [0]⟩]), .rsp (.coreGetConfig .invalidParam [⟨⟨9⟩, []⟩])] := by decide +kernel

/-- A device with low power mode off, and the history that made it so. -/
example : ∃ p tr d, Run .new tr p ∧ p.devices.get? 0 = some d ∧ Power 0 tr false := by
  obtain ⟨⟨p, tr⟩, hp, hf⟩ := Ex.exists_ok
    (x := Ex.play .new [(Ex.env, .connect), Ex.pkt 0 Ex.reset, Ex.pkt 0 (Ex.cmd 0 4 [1, 1, 1, 0])])
    (f := fun x => (x.1.devices.get? 0).map fun d => d.config.lowPowerMode) (b := some false) (by decide +kernel)
  obtain ⟨d, hd, hf⟩ := Option.map_eq_some_iff.mp hf
  exact ⟨p, tr, d, Ex.play_run hp, hd, (C49_last p tr (Ex.play_run hp) 0 d hd false).mpr hf.symm⟩

end Pica.Props

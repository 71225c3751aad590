import Verif.Proofs.DeviceInv
/-! The invariant of the emulator and what a step does to each device. -/

set_option linter.dupNamespace false

namespace Pica
open SessionState Spec

@[simp] theorem effectsOf_nil (h : Nat) : effectsOf h [] = [] := rfl
@[simp] theorem effectsOf_append (h : Nat) (a b : List Out) : effectsOf h (a ++ b) = effectsOf h a ++ effectsOf h b :=
  List.filterMap_append
theorem effectsOf_map (x h : Nat) (es : List Effect) :
    effectsOf x (es.map (.effect h)) = if h = x then es else [] := by
  induction es with
  | nil => simp
  | cons e es ih =>
    rw [List.map_cons, show ∀ (a : Out) l, a :: l = [a] ++ l from fun _ _ => rfl, effectsOf_append, ih]
    by_cases hx : h = x <;> simp [effectsOf, hx]
@[simp] theorem sentTo_nil (h : Nat) : sentTo h [] = [] := rfl
@[simp] theorem sentTo_append (h : Nat) (a b : List Out) : sentTo h (a ++ b) = sentTo h a ++ sentTo h b :=
  List.filterMap_append
@[simp] theorem sentTo_map (x h : Nat) (es : List Effect) : sentTo x (es.map (.effect h)) = [] := by
  apply List.filterMap_eq_nil_iff.mpr
  intro a ha
  obtain ⟨e, -, rfl⟩ := List.mem_map.mp ha
  rfl
@[simp] theorem effectsOf_event (x : Nat) (e : PicaEvent) : effectsOf x [.event e] = [] := rfl
@[simp] theorem effectsOf_send (x h : Nat) (p : Packet) : effectsOf x [.send h p] = [] := rfl

namespace Pica

/-- What holds of every reachable context. -/
structure PInv (p : Pica) : Prop where
  devNodup : (AMap.keys p.devices).Nodup
  dev : ∀ h d, p.devices.get? h = some d → d.handle = h ∧ h < p.counter ∧ d.macAddress = deviceMac h ∧ DevInv d
  ancNodup : (AMap.keys p.anchors).Nodup
  anc : ∀ m a, p.anchors.get? m = some a → a.macAddress = m ∧ a.handle < p.counter ∧ p.devices.get? a.handle = none
  ancInj : ∀ m a n b, p.anchors.get? m = some a → p.anchors.get? n = some b → a.handle = b.handle → m = n

theorem pinv_new : PInv new :=
  ⟨List.nodup_nil, (by intro h d e; cases e), List.nodup_nil, (by intro h d e; cases e), by intro _ _ _ _ e; cases e⟩

/-- What a step does to the device with handle `x`. -/
inductive DevStep (tid : Nat) (c : Command) (counter x : Nat) : Option Device → List Effect → Option Device → Prop
  | move (d d' : Device) (e : List Effect) : DevMove tid ⟨fun _ => True, ∃ y b, c = .uciPacket y b⟩ d e d' → DevStep tid c counter x (some d) e (some d')
  | connect : c = .connect → x = counter →
      DevStep tid c counter x none [.notify 5 (.coreDeviceStatus .deviceStateReady)]
        (some (Device.new x (deviceMac x)).init.1)
  | disconnect (d : Device) : c = .disconnect x → DevStep tid c counter x (some d) d.dropSessions none
  | absent : DevStep tid c counter x none [] none

theorem DevStep.same (tid : Nat) (c : Command) (counter x : Nat) (o : Option Device) : DevStep tid c counter x o [] o := by
  cases o
  · exact .absent
  · exact .move _ _ _ (.refl _ _)

/-- Outputs that are only packets, events and replies. -/
def Plain (out : List Out) : Prop := ∀ x, effectsOf x out = []

theorem plain_append {a b : List Out} (ha : Plain a) (hb : Plain b) : Plain (a ++ b) := fun x => by
  rw [effectsOf_append, ha, hb]; rfl

theorem plain_sendUnwrap {alive : Nat → Bool} {h : Nat} {pkt : Packet} {o : List Out}
    (hs : sendUnwrap alive h pkt = .ok o) : o = [.send h pkt] ∧ pkt.encode.isSome = true ∧ alive h = true := by
  unfold sendUnwrap at hs
  split at hs
  · cases hs
  · split at hs
    · cases hs
    · rename_i h1 h2
      cases hs
      refine ⟨rfl, ?_, by simpa using h2⟩
      cases he : pkt.encode <;> simp_all

theorem plain_dataSends {alive : Nat → Bool} {sid : UInt32} {s : Session} {l : List Device} {o : List Out}
    (hs : dataSends alive sid s l = .ok o) : Plain o := by
  induction l generalizing o with
  | nil => cases hs; intro x; rfl
  | cons q l ih =>
    unfold dataSends at hs
    split at hs
    · cases hs
    · simp only [bind, Except.bind] at hs
      split at hs
      · cases hs
      · rename_i hq
        split at hs
        · cases hs
        · rename_i hr
          cases hs
          refine plain_append ?_ (ih hr)
          rw [(plain_sendUnwrap hq).1]; intro x; rfl

/-- The successful rounds. -/
theorem ranging_ok {p p' : Pica} {env : Env} {h : Nat} {sid : UInt32} {out : List Out}
    (hr : p.ranging env h sid = .ok (p', out)) :
    ∃ d s ms ms' ts o₁, p.devices.get? h = some d ∧ d.session sid = some s ∧
      anchorMeasurements env.estimate p.anchors d.handle s.appConfig.dstMacAddress = .ok ms ∧
      peerLoop env.estimate h d.handle sid s (d.canStartDataTransfer sid) p.devices.values = .ok (ms', ts) ∧
      dataSends env.alive sid s ts = .ok o₁ ∧
      ((s.isSessionInfoNtfEnabled = true ∧
          sendUnwrap env.alive h (.ntf (.sessionInfo s.sequenceNumber sid 0 0 (ms ++ ms') [])) =
            .ok [.send h (.ntf (.sessionInfo s.sequenceNumber sid 0 0 (ms ++ ms') []))] ∧
          out = o₁ ++ [.send h (.ntf (.sessionInfo s.sequenceNumber sid 0 0 (ms ++ ms') []))] ∧
          s.sequenceNumber.toNat + 1 < 2 ^ 32 ∧
          p' = { p with devices := AMap.insert p.devices h (d.putSession sid
                { s with sequenceNumber := s.sequenceNumber + 1, data := [] }) }) ∨
       (s.isSessionInfoNtfEnabled = false ∧ out = o₁ ∧
          p' = { p with devices := p.devices.insert h (d.putSession sid { s with data := [] }) })) := by
  unfold ranging at hr
  split at hr
  · cases hr
  · rename_i d hd
    split at hr
    · cases hr
    · rename_i s hs
      cases ha : anchorMeasurements env.estimate p.anchors d.handle s.appConfig.dstMacAddress with
      | error x => rw [ha] at hr; cases hr
      | ok ms =>
        cases hp : peerLoop env.estimate h d.handle sid s (d.canStartDataTransfer sid) p.devices.values with
        | error x => rw [ha, hp] at hr; cases hr
        | ok y =>
          obtain ⟨ms', ts⟩ := y
          cases ho : dataSends env.alive sid s ts with
          | error x =>
            rw [ha, hp] at hr
            simp only [bind, Except.bind, ho] at hr
            cases hr
          | ok o₁ =>
            refine ⟨d, s, ms, ms', ts, o₁, hd, hs, ha, hp, ho, ?_⟩
            rw [ha, hp] at hr
            simp only [bind, Except.bind, ho] at hr
            split at hr
            · rename_i hi
              split at hr
              · cases hr
              · rename_i hw
                split at hr
                · rename_i hn
                  cases hr
                  obtain ⟨h1, -⟩ := plain_sendUnwrap hw
                  subst h1
                  exact .inl ⟨hi, hw, rfl, hn, rfl⟩
                · cases hr
            · rename_i hi
              cases hr
              exact .inr ⟨by simpa using hi, rfl, rfl⟩

theorem get?_map_values {V W : Type} (m : AMap Nat V) (f : V → W) (x : Nat) :
    AMap.get? (m.map (fun e => (e.1, f e.2))) x = (m.get? x).map f := by
  induction m with
  | nil => rfl
  | cons e m ih =>
    rw [List.map_cons, AMap.get?_cons, AMap.get?_cons, ih]
    split <;> rfl

theorem keys_map_values {V W : Type} (m : AMap Nat V) (f : V → W) :
    AMap.keys (m.map (fun e => (e.1, f e.2))) = AMap.keys m := by
  unfold AMap.keys
  rw [List.map_map]; rfl

theorem effectsOf_flatMap {m : AMap Nat Device} (hn : (AMap.keys m).Nodup) (g : Device → List Effect) (x : Nat) :
    effectsOf x (m.flatMap (fun e => (g e.2).map (.effect e.1))) = ((m.get? x).map g).getD [] := by
  induction m with
  | nil => rfl
  | cons e m ih =>
    have hn' : e.1 ∉ AMap.keys m ∧ (AMap.keys m).Nodup := by simpa [AMap.keys] using hn
    rw [List.flatMap_cons, effectsOf_append, effectsOf_map, ih hn'.2, AMap.get?_cons]
    by_cases hx : e.1 = x
    · subst hx; rw [AMap.get?_eq_none.mpr hn'.1]; simp
    · simp [hx]

theorem step_dev {p p' : Pica} {env : Env} {c : Command} {out : List Out} (hi : PInv p)
    (h : p.step env c = .ok (p', out)) (x : Nat) :
    DevStep env.tid c p.counter x (p.devices.get? x) (effectsOf x out) (p'.devices.get? x) := by
  cases c with
  | connect =>
    unfold step at h
    cases h
    have hfresh : p.devices.get? p.counter = none := by
      cases hg : p.devices.get? p.counter with
      | none => rfl
      | some d => exact absurd (hi.dev _ _ hg).2.1 (Nat.lt_irrefl _)
    show DevStep _ _ _ _ _ (effectsOf x (List.map _ _ ++ _)) (AMap.get? (AMap.insert _ _ _) x)
    rw [effectsOf_append, effectsOf_map, effectsOf_event, AMap.get?_insert, List.append_nil]
    by_cases hx : p.counter = x
    · subst hx
      rw [if_pos rfl, if_pos rfl, hfresh]
      exact .connect rfl rfl
    · rw [if_neg hx, if_neg hx]; exact .same _ _ _ _ _
  | disconnect y =>
    change Except.ok (p.disconnect y) = _ at h
    unfold disconnect at h
    cases hg : p.devices.get? y with
    | none => rw [hg] at h; cases h; exact .same _ _ _ _ _
    | some d =>
      rw [hg] at h
      cases h
      show DevStep _ _ _ _ _ (effectsOf x ([Out.event _] ++ List.map _ _)) (AMap.get? (AMap.erase _ _) x)
      rw [effectsOf_append, effectsOf_map, effectsOf_event, AMap.get?_erase, List.nil_append]
      by_cases hx : y = x
      · subst hx; rw [if_pos rfl, if_pos rfl, hg]; exact .disconnect d rfl
      · rw [if_neg hx, if_neg hx]; exact .same _ _ _ _ _
  | ranging y sid =>
    obtain ⟨d, s, ms, ms', ts, o₁, hd, hs, -, -, ho, hc⟩ := ranging_ok h
    have hmove : ∀ n, DevMove env.tid (.one sid) d [] (d.putSession sid { s with sequenceNumber := n, data := [] }) := fun n =>
      Device.round_move hs
    rcases hc with ⟨-, -, rfl, -, rfl⟩ | ⟨-, rfl, rfl⟩
    · rw [effectsOf_append, plain_dataSends ho]
      show DevStep _ _ _ _ _ _ (AMap.get? (AMap.insert _ _ _) x)
      rw [AMap.get?_insert]
      by_cases hx : y = x
      · subst hx; rw [if_pos rfl, hd]; exact .move _ _ _ ((hmove _).mono (fun _ _ => trivial) False.elim)
      · rw [if_neg hx]; exact .same _ _ _ _ _
    · rw [plain_dataSends ho]
      show DevStep _ _ _ _ _ _ (AMap.get? (AMap.insert _ _ _) x)
      rw [AMap.get?_insert]
      by_cases hx : y = x
      · subst hx; rw [if_pos rfl, hd]; exact .move _ _ _ ((hmove s.sequenceNumber).mono (fun _ _ => trivial) False.elim)
      · rw [if_neg hx]; exact .same _ _ _ _ _
  | stopRanging mac sid =>
    unfold step stopControleeRanging at h
    cases h
    rw [effectsOf_flatMap hi.devNodup (fun d => (d.stopInBand mac sid).2)]
    show DevStep _ _ _ _ _ _ (AMap.get? (List.map _ _) x)
    rw [get?_map_values p.devices (fun d => (d.stopInBand mac sid).1)]
    cases hg : p.devices.get? x with
    | none => exact .absent
    | some d => exact .move _ _ _ (Device.stopInBand_move.mono (fun _ _ => trivial) False.elim)
  | uciPacket y pkt =>
    change p.uciPacket env y pkt = _ at h
    unfold uciPacket at h
    cases hg : p.devices.get? y with
    | none => rw [hg] at h; cases h; exact .same _ _ _ _ _
    | some d =>
      rw [hg] at h
      cases hr : d.receivePacket env.tid pkt with
      | error z => simp only [hr] at h; cases h
      | ok z =>
        obtain ⟨d', r, e⟩ := z
        simp only [hr] at h
        cases h
        show DevStep _ _ _ _ _ _ (AMap.get? (AMap.insert _ _ _) x)
        rw [effectsOf_append, effectsOf_map, AMap.get?_insert,
          show effectsOf x (r.map (Out.send y)).toList = [] by cases r <;> rfl, List.nil_append]
        by_cases hx : y = x
        · subst hx; rw [if_pos rfl, if_pos rfl, hg]; exact .move _ _ _ ((Device.receivePacket_move hr).mono (fun _ _ => trivial) fun _ => ⟨_, _, rfl⟩)
        · rw [if_neg hx, if_neg hx]; exact .same _ _ _ _ _
  | createAnchor mac =>
    change p.createAnchor mac = _ at h
    unfold createAnchor at h
    split at h
    · cases h; exact .same _ _ _ _ _
    · split at h
      · cases h
      · cases h; exact .same _ _ _ _ _
  | destroyAnchor mac =>
    change Except.ok (p.destroyAnchor mac) = _ at h
    unfold destroyAnchor at h
    split at h
    · cases h; exact .same _ _ _ _ _
    · cases h; exact .same _ _ _ _ _

/-- What a step does to the anchors and the counter. -/
inductive AncStep (p p' : Pica) : Command → List Out → Prop
  | same (c : Command) (out : List Out) : (∀ m, c ≠ .createAnchor m) → (∀ m, c ≠ .destroyAnchor m) →
      p'.anchors = p.anchors → p'.counter = p.counter + (if c = .connect then 1 else 0) → AncStep p p' c out
  | known (m : MacAddress) : p.macKnown m = true → p' = p →
      AncStep p p' (.createAnchor m) [.anchorReply (.error (.deviceAlreadyExists m))]
  | create (m : MacAddress) : p.macKnown m = false →
      p' = { p with counter := p.counter + 1, anchors := p.anchors.insert m ⟨p.counter, m⟩ } →
      AncStep p p' (.createAnchor m) [.anchorReply (.ok p.counter)]
  | unknown (m : MacAddress) : p.anchors.get? m = none → p' = p →
      AncStep p p' (.destroyAnchor m) [.anchorReply (.error (.deviceNotFound m))]
  | destroy (m : MacAddress) (a : Anchor) : p.anchors.get? m = some a → p' = { p with anchors := p.anchors.erase m } →
      AncStep p p' (.destroyAnchor m) [.anchorReply (.ok a.handle)]

theorem step_anc {p p' : Pica} {env : Env} {c : Command} {out : List Out} (h : p.step env c = .ok (p', out)) :
    AncStep p p' c out := by
  cases c with
  | connect => cases h; exact .same _ _ (by simp) (by simp) rfl (by simp)
  | disconnect y =>
    change Except.ok (p.disconnect y) = _ at h
    unfold disconnect at h
    split at h <;> cases h <;> exact .same _ _ (by simp) (by simp) rfl (by simp)
  | ranging y sid =>
    obtain ⟨d, s, ms, ms', ts, o₁, hd, hs, -, -, ho, hc⟩ := ranging_ok h
    rcases hc with ⟨-, -, rfl, -, rfl⟩ | ⟨-, rfl, rfl⟩ <;> exact .same _ _ (by simp) (by simp) rfl (by simp)
  | stopRanging mac sid => cases h; exact .same _ _ (by simp) (by simp) rfl (by simp)
  | uciPacket y pkt =>
    change p.uciPacket env y pkt = _ at h
    unfold uciPacket at h
    cases hg : p.devices.get? y with
    | none => rw [hg] at h; cases h; exact .same _ _ (by simp) (by simp) rfl (by simp)
    | some d =>
      rw [hg] at h
      cases hr : d.receivePacket env.tid pkt with
      | error z => simp only [hr] at h; cases h
      | ok z => simp only [hr] at h; cases h; exact .same _ _ (by simp) (by simp) rfl (by simp)
  | createAnchor mac =>
    change p.createAnchor mac = _ at h
    unfold createAnchor at h
    split at h
    · rename_i hk; cases h; exact .known mac hk rfl
    · split at h
      · cases h
      · rename_i hk _; cases h; exact .create mac (by simpa using hk) rfl
  | destroyAnchor mac =>
    change Except.ok (p.destroyAnchor mac) = _ at h
    unfold destroyAnchor at h
    split at h
    · rename_i hk; cases h; exact .unknown mac hk rfl
    · rename_i a hk; cases h; exact .destroy mac a hk rfl

theorem step_counter {p p' : Pica} {env : Env} {c : Command} {out : List Out} (h : p.step env c = .ok (p', out)) :
    p.counter ≤ p'.counter := by
  cases step_anc h with
  | same _ _ _ _ _ hc => rw [hc]; omega
  | known _ _ e => rw [e]; exact Nat.le_refl _
  | create _ _ e => rw [e]; exact Nat.le_succ _
  | unknown _ _ e => rw [e]; exact Nat.le_refl _
  | destroy _ _ _ e => rw [e]; exact Nat.le_refl _

theorem step_devNodup {p p' : Pica} {env : Env} {c : Command} {out : List Out} (hi : PInv p)
    (h : p.step env c = .ok (p', out)) : (AMap.keys p'.devices).Nodup := by
  have hn := hi.devNodup
  cases c with
  | connect => cases h; exact AMap.nodup_insert hn _ _
  | disconnect y =>
    change Except.ok (p.disconnect y) = _ at h
    unfold disconnect at h
    split at h <;> cases h
    · exact AMap.nodup_erase hn _
    · exact hn
  | ranging y sid =>
    obtain ⟨d, s, ms, ms', ts, o₁, hd, hs, -, -, ho, hc⟩ := ranging_ok h
    rcases hc with ⟨-, -, rfl, -, rfl⟩ | ⟨-, rfl, rfl⟩ <;> exact AMap.nodup_insert hn _ _
  | stopRanging mac sid =>
    cases h
    exact (keys_map_values p.devices fun d => (d.stopInBand mac sid).1) ▸ hn
  | uciPacket y pkt =>
    change p.uciPacket env y pkt = _ at h
    unfold uciPacket at h
    cases hg : p.devices.get? y with
    | none => rw [hg] at h; cases h; exact hn
    | some d =>
      rw [hg] at h
      cases hr : d.receivePacket env.tid pkt with
      | error z => simp only [hr] at h; cases h
      | ok z => simp only [hr] at h; cases h; exact AMap.nodup_insert hn _ _
  | createAnchor mac =>
    cases step_anc h with
    | same _ _ hc => exact absurd rfl (hc mac)
    | known _ _ e => rw [e]; exact hn
    | create _ _ e => rw [e]; exact hn
  | destroyAnchor mac =>
    cases step_anc h with
    | same _ _ _ hc => exact absurd rfl (hc mac)
    | unknown _ _ e => rw [e]; exact hn
    | destroy _ _ _ e => rw [e]; exact hn

theorem step_inv {p p' : Pica} {env : Env} {c : Command} {out : List Out} (hi : PInv p)
    (h : p.step env c = .ok (p', out)) : PInv p' := by
  have hct := step_counter h
  have hdev : ∀ x d, p'.devices.get? x = some d → d.handle = x ∧ x < p'.counter ∧ d.macAddress = deviceMac x ∧ DevInv d := by
    intro x d hx
    have hs := step_dev hi h x
    rw [hx] at hs
    generalize hg : p.devices.get? x = o at hs
    generalize effectsOf x out = e at hs
    cases hs with
    | move d₀ _ _ hm =>
      obtain ⟨h1, h2, h3, h4⟩ := hi.dev x _ hg
      obtain ⟨g1, g2⟩ := devMove_handle hm
      exact ⟨g1.trans h1, by omega, g2.trans h3, devMove_inv hm h4⟩
    | connect hc hxc =>
      refine ⟨by rw [Device.init, Device.setState_eq]; rfl, ?_, by rw [Device.init, Device.setState_eq]; rfl, devInv_init _ _⟩
      subst hc
      have := step_anc h
      cases this with
      | same _ _ _ _ _ e => rw [e]; simp [hxc]
  have hnone : ∀ a : Anchor, a.handle < p.counter → p.devices.get? a.handle = none → p'.devices.get? a.handle = none := by
    intro a hlt hn
    have hs := step_dev hi h a.handle
    rw [hn] at hs
    generalize p'.devices.get? a.handle = o at hs
    generalize effectsOf a.handle out = e at hs
    cases hs with
    | connect _ hx => omega
    | absent => rfl
  have ha := step_anc h
  refine ⟨step_devNodup hi h, hdev, ?_, ?_, ?_⟩
  · cases ha with
    | same _ _ _ _ e => rw [e]; exact hi.ancNodup
    | known _ _ e => rw [e]; exact hi.ancNodup
    | create _ _ e => rw [e]; exact AMap.nodup_insert hi.ancNodup _ _
    | unknown _ _ e => rw [e]; exact hi.ancNodup
    | destroy _ _ _ e => rw [e]; exact AMap.nodup_erase hi.ancNodup _
  · intro m a hm
    have old : p.anchors.get? m = some a →
        a.macAddress = m ∧ a.handle < p'.counter ∧ p'.devices.get? a.handle = none := fun hm => by
      obtain ⟨h1, h2, h3⟩ := hi.anc m a hm
      exact ⟨h1, by omega, hnone a h2 h3⟩
    cases ha with
    | same _ _ _ _ e => exact old (by rw [← e]; exact hm)
    | known _ _ e => exact old (by rw [e] at hm; exact hm)
    | create n _ e =>
      rw [e] at hm
      rw [AMap.get?_insert] at hm
      split at hm
      · rename_i he
        cases hm
        refine ⟨he, by rw [e]; exact Nat.lt_succ_self _, ?_⟩
        rw [e]
        show p.devices.get? p.counter = none
        cases hg : p.devices.get? p.counter with
        | none => rfl
        | some d => exact absurd (hi.dev _ _ hg).2.1 (Nat.lt_irrefl _)
      · exact old hm
    | unknown _ _ e => exact old (by rw [e] at hm; exact hm)
    | destroy n _ _ e =>
      rw [e] at hm
      rw [AMap.get?_erase] at hm
      split at hm
      · cases hm
      · exact old hm
  · intro m a n b hm hn hab
    cases ha with
    | same _ _ _ _ e => rw [e] at hm hn; exact hi.ancInj m a n b hm hn hab
    | known _ _ e => rw [e] at hm hn; exact hi.ancInj m a n b hm hn hab
    | create k _ e =>
      rw [e, AMap.get?_insert] at hm hn
      split at hm
      · split at hn
        · simp_all
        · cases hm
          have := (hi.anc n b hn).2.1
          simp only at hab; omega
      · split at hn
        · cases hn
          have := (hi.anc m a hm).2.1
          simp only at hab; omega
        · exact hi.ancInj m a n b hm hn hab
    | unknown _ _ e => rw [e] at hm hn; exact hi.ancInj m a n b hm hn hab
    | destroy k _ _ e =>
      rw [e, AMap.get?_erase] at hm hn
      split at hm
      · cases hm
      · split at hn
        · cases hn
        · exact hi.ancInj m a n b hm hn hab

/-- A reordering changes only the enumeration order. -/
theorem reorder_dev {p q : Pica} (hi : PInv p) (h : Reorder p q) :
    q.counter = p.counter ∧ (AMap.keys q.devices).Nodup ∧ q.anchors.Perm p.anchors ∧
    ∀ x, q.devices.get? x = p.devices.get? x ∨
      ∃ d l, p.devices.get? x = some d ∧ l.Perm d.sessions ∧ q.devices.get? x = some { d with sessions := l } := by
  cases h with
  | devices hp =>
    exact ⟨rfl, (hp.map Prod.fst).nodup_iff.mpr hi.devNodup, .refl _, fun x => .inl (AMap.get?_perm hi.devNodup hp x)⟩
  | anchors hp => exact ⟨rfl, hi.devNodup, hp, fun x => .inl rfl⟩
  | @sessions h d l hd hp =>
    refine ⟨rfl, AMap.nodup_insert hi.devNodup _ _, .refl _, fun x => ?_⟩
    show AMap.get? (AMap.insert _ _ _) x = _ ∨ ∃ d l, _ ∧ _ ∧ AMap.get? (AMap.insert _ _ _) x = _
    rw [AMap.get?_insert]
    by_cases hx : h = x
    · subst hx; rw [if_pos rfl]; exact .inr ⟨d, l, hd, hp, rfl⟩
    · rw [if_neg hx]; exact .inl rfl

theorem reorder_move {p q : Pica} (hi : PInv p) (h : Reorder p q) (tid x : Nat) :
    (p.devices.get? x = none ∧ q.devices.get? x = none) ∨
    ∃ d d', p.devices.get? x = some d ∧ q.devices.get? x = some d' ∧ DevMove tid ⟨fun _ => True, False⟩ d [] d' := by
  rcases (reorder_dev hi h).2.2.2 x with e | ⟨d, l, hd, hp, hq⟩
  · rw [e]
    cases p.devices.get? x with
    | none => exact .inl ⟨rfl, rfl⟩
    | some d => exact .inr ⟨d, d, rfl, rfl, .refl _ _⟩
  · exact .inr ⟨d, _, hd, hq, .reorder d l hp⟩

theorem reorder_inv {p q : Pica} (hi : PInv p) (h : Reorder p q) : PInv q := by
  obtain ⟨hc, hn, ha, -⟩ := reorder_dev hi h
  have hg : ∀ m, q.anchors.get? m = p.anchors.get? m := fun m => AMap.get?_perm hi.ancNodup ha m
  refine ⟨hn, ?_, (ha.map Prod.fst).nodup_iff.mpr hi.ancNodup, ?_, ?_⟩
  · intro x d hx
    rcases reorder_move hi h 0 x with ⟨-, e⟩ | ⟨d₀, d', h1, h2, hm⟩
    · rw [e] at hx; cases hx
    · rw [h2] at hx; cases hx
      obtain ⟨i1, i2, i3, i4⟩ := hi.dev x d₀ h1
      obtain ⟨g1, g2⟩ := devMove_handle hm
      exact ⟨g1.trans i1, by omega, g2.trans i3, devMove_inv hm i4⟩
  · intro m a hm
    rw [hg] at hm
    obtain ⟨h1, h2, h3⟩ := hi.anc m a hm
    refine ⟨h1, by omega, ?_⟩
    rcases reorder_move hi h 0 a.handle with ⟨-, e⟩ | ⟨d₀, d', h1, h2, hm⟩
    · exact e
    · rw [h1] at h3; cases h3
  · intro m a n b hm hn
    rw [hg] at hm hn
    exact hi.ancInj m a n b hm hn

theorem run_inv {p q : Pica} {tr : List Event} (h : Run p tr q) (hi : PInv p) : PInv q := by
  induction h with
  | nil => exact hi
  | cmd _ hs ih => exact step_inv ih hs
  | reorder _ hr ih => exact reorder_inv ih hr

theorem reachable_inv {p : Pica} (h : Reachable p) : PInv p := by
  obtain ⟨tr, h⟩ := h
  exact run_inv h pinv_new

theorem Reachable.step {p q : Pica} {env : Env} {c : Command} {out : List Out} (h : Reachable p)
    (hs : p.step env c = .ok (q, out)) : Reachable q := by
  obtain ⟨tr, h⟩ := h
  exact ⟨_, .cmd h hs⟩

end Pica
end Pica

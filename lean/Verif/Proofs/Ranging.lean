import Verif.Spec.Ranging
import Verif.Proofs.Params
import Mathlib.Data.List.Forall2
/-! The loops of a ranging round. -/

set_option linter.dupNamespace false

namespace Pica
open Spec SessionState

theorem makeMeasurement_ok {m : MacAddress} {l r : RangingMeasurement} {x : Measurement}
    (h : Pica.makeMeasurement m l r = .ok x) (k : Nat) : Carries ⟨k, m, l, r⟩ x := by
  unfold Pica.makeMeasurement at h
  split at h
  · rename_i a
    cases h
    refine ⟨⟨a, rfl, ?_⟩, rfl, rfl, rfl, rfl, ?_, rfl, ?_, rfl, rfl, rfl, rfl, rfl, rfl⟩
    · show leBytes 2 (UInt16.ofNat (ofLe a.1)).toNat = a.1
      have h2 := a.2
      have hlt := ofLe_lt a.1
      rw [UInt16.toNat_ofNat_of_lt' (by rw [h2] at hlt; exact hlt)]
      exact leBytes_ofLe' h2
    · exact Int8.toInt_toInt16 _
    · exact Int8.toInt_toInt16 _
  · cases h

theorem makeMeasurement_short (a : Arr 2) (l r : RangingMeasurement) : ∃ x, Pica.makeMeasurement (.short a) l r = .ok x :=
  ⟨_, rfl⟩

theorem compatible_symm {a b : AppConfig} : Compatible a b ↔ Compatible b a := by
  unfold Compatible
  constructor <;> rintro ⟨h1, h2, h3, h4⟩ <;> exact ⟨h1.symm, h2.symm, h4, h3⟩

theorem isCompatible_ok {a b : AppConfig} {r : Bool} (h : a.isCompatibleForRanging b = .ok r) :
    r = true ↔ Compatible b a := by
  unfold AppConfig.isCompatibleForRanging at h
  unfold Compatible
  split at h
  · rename_i h1
    split at h
    · cases h
    · rename_i m hm
      split at h
      · rename_i h2
        split at h
        · cases h
        · rename_i n hn
          cases h
          simp [hm, hn, h1.1.symm, h1.2.symm, h2]
      · rename_i h2
        cases h
        simp [hm, h2]
  · rename_i h1
    cases h
    constructor
    · intro h; cases h
    · rintro ⟨h2, h3, -⟩; exact absurd ⟨h2.symm, h3.symm⟩ h1

theorem isCompatible_some {a b : AppConfig} (ha : a.deviceMacAddress ≠ none)
    (hb : b.deviceMacAddress = none → b.dstMacAddress = []) : ∃ r, a.isCompatibleForRanging b = .ok r := by
  unfold AppConfig.isCompatibleForRanging
  cases h1 : a.deviceMacAddress with
  | none => exact absurd h1 ha
  | some m =>
    cases h2 : b.deviceMacAddress with
    | none =>
      rw [hb h2]
      split
      · exact ⟨_, rfl⟩
      · exact ⟨_, rfl⟩
    | some n =>
      split
      · simp only
        split
        · exact ⟨_, rfl⟩
        · exact ⟨_, rfl⟩
      · exact ⟨_, rfl⟩

theorem bothWays_some {est : Estimator} {h k : Nat} {l r : RangingMeasurement} (h1 : est h k = some l) (h2 : est k h = some r) :
    bothWays est h k = some (l, r) := by unfold bothWays; rw [h1, h2]

theorem anchor_ok {est : Estimator} {anchors : AMap MacAddress Anchor} {h : Nat} {dst : List MacAddress}
    {ms : List Measurement} (hr : Pica.anchorMeasurements est anchors h dst = .ok ms) :
    List.Forall₂ Carries (dst.filterMap (anchorPeer est anchors h)) ms := by
  induction dst generalizing ms with
  | nil => cases hr; exact .nil
  | cons m dst ih =>
    unfold Pica.anchorMeasurements at hr
    rw [List.filterMap_cons]
    unfold anchorPeer
    split at hr
    · rename_i hn
      simp only [hn, Option.bind_none]
      exact ih hr
    · rename_i a ha
      simp only [ha, Option.bind_some]
      split at hr
      · rename_i l r h1 h2
        rw [bothWays_some h1 h2]
        simp only [bind, Except.bind] at hr
        split at hr
        · cases hr
        · rename_i x hx
          split at hr
          · cases hr
          · rename_i xs hxs
            cases hr
            exact .cons (makeMeasurement_ok hx _) (ih hxs)
      · rename_i hne
        have : bothWays est h a.handle = none := by
          unfold bothWays
          split
          · rename_i l r h1 h2; exact (hne l r h1 h2).elim
          · rfl
        rw [this]
        exact ih hr

/-- The device is pushed on the list of data receivers. -/
def Delivered (est : Estimator) (h : Nat) (sid : UInt32) (s : Session) (canSend : Bool) (k : Nat) (q : Device) : Prop :=
  k ≠ h ∧ canSend = true ∧ (∃ t, q.sessions.get? sid = some t ∧ Exchanges t .responder) ∧ ¬Unseen est h sid s k q

theorem receives_iff {q : Device} {sid : UInt32} : q.canReceiveDataTransfer sid = true ↔
    ∃ t, q.sessions.get? sid = some t ∧ Exchanges t .responder := by
  unfold Device.canReceiveDataTransfer Device.session AppConfig.canReceiveDataTransfer Exchanges
  cases q.sessions.get? sid <;> simp [and_assoc]

theorem sends_iff {q : Device} {sid : UInt32} : q.canStartDataTransfer sid = true ↔
    ∃ t, q.sessions.get? sid = some t ∧ Exchanges t .initiator := by
  unfold Device.canStartDataTransfer Device.session AppConfig.canStartDataTransfer Exchanges
  cases q.sessions.get? sid <;> simp [and_assoc]

theorem canStart_ok {q : Device} {s : Session} {sid : UInt32} {r : Bool} (h : q.canStartRanging s sid = .ok r) :
    r = true ↔ ∃ t, q.sessions.get? sid = some t ∧ t.state = sessionStateActive ∧ Compatible s.appConfig t.appConfig := by
  unfold Device.canStartRanging Device.session at h
  split at h
  · rename_i t ht
    split at h
    · rename_i ha
      rw [isCompatible_ok h]
      constructor
      · intro hc; exact ⟨t, ht, ha, hc⟩
      · rintro ⟨t', ht', -, hc⟩; rw [ht] at ht'; cases ht'; exact hc
    · rename_i ha
      cases h
      constructor
      · intro h; cases h
      · rintro ⟨t', ht', ha', -⟩; rw [ht] at ht'; cases ht'; exact absurd ha' ha
  · rename_i ht
    cases h
    constructor
    · intro h; cases h
    · rintro ⟨t', ht', -⟩; rw [ht] at ht'; cases ht'

open Classical in
theorem peer_ok {est : Estimator} {h : Nat} {sid : UInt32} {s : Session} {b : Bool} {l : AMap Nat Device}
    (hh : ∀ e ∈ l, e.2.handle = e.1) {ms : List Measurement} {ts : List Device}
    (hr : Pica.peerLoop est h h sid s b l.values = .ok (ms, ts)) :
    List.Forall₂ Carries (l.filterMap fun e => devicePeer est h sid s e.1 e.2) ms ∧
    ts = (l.filter fun e => decide (Delivered est h sid s b e.1 e.2)).map Prod.snd := by
  induction l generalizing ms ts with
  | nil => cases hr; exact ⟨.nil, rfl⟩
  | cons e l ih =>
    obtain ⟨k, q⟩ := e
    have hq : q.handle = k := hh _ (List.mem_cons_self ..)
    have ih := @ih (fun e he => hh e (List.mem_cons_of_mem _ he))
    change Pica.peerLoop est h h sid s b (q :: AMap.values l) = _ at hr
    unfold Pica.peerLoop at hr
    rw [List.filterMap_cons, List.filter_cons]
    dsimp only
    split at hr
    · rename_i hk
      have hkh : k = h := hq.symm.trans hk
      have h1 : devicePeer est h sid s k q = none := by
        unfold devicePeer
        cases q.sessions.get? sid with
        | none => rfl
        | some t => exact if_neg fun hc => hc.1 hkh
      have h2 : ¬Delivered est h sid s b k q := fun hc => hc.1 hkh
      rw [h1, if_neg (by simpa using h2)]
      exact ih hr
    · rename_i hk
      have hkh : k ≠ h := fun e => hk (hq.trans e)
      simp only [bind, Except.bind] at hr
      split at hr
      · cases hr
      · rename_i r hc
        have hcs := canStart_ok hc
        split at hr
        · rename_i hrt
          obtain ⟨t, ht, hta, hcomp⟩ := hcs.mp hrt
          have hts : q.session sid = some t := ht
          have hdp : devicePeer est h sid s k q =
              t.appConfig.deviceMacAddress.bind fun m => (bothWays est h k).map fun x => ⟨k, m, x.1, x.2⟩ := by
            unfold devicePeer
            rw [ht]
            exact if_pos ⟨hkh, hta, hcomp⟩
          split at hr
          · cases hr
          · rename_i mac hm
            rw [hts, Option.bind_some] at hm
            rw [hdp, hm, Option.bind_some]
            rw [hq] at hr
            split at hr
            · rename_i lo re h1 h2
              rw [bothWays_some h1 h2]
              split at hr
              · cases hr
              · rename_i x hx
                split at hr
                · cases hr
                · rename_i y hy
                  obtain ⟨xs, ds⟩ := y
                  cases hr
                  obtain ⟨i1, i2⟩ := ih hy
                  refine ⟨.cons (makeMeasurement_ok hx _) i1, ?_⟩
                  have hd : Delivered est h sid s b k q ↔ (b && q.canReceiveDataTransfer sid) = true := by
                    unfold Delivered
                    rw [Bool.and_eq_true, receives_iff]
                    constructor
                    · rintro ⟨-, h3, h4, -⟩; exact ⟨h3, h4⟩
                    · rintro ⟨h3, h4⟩
                      refine ⟨hkh, h3, h4, ?_⟩
                      rintro ⟨t', -, -, -, h5⟩
                      rw [bothWays_some h1 h2] at h5; cases h5
                  by_cases hbd : (b && q.canReceiveDataTransfer sid) = true
                  · rw [if_pos hbd, if_pos (decide_eq_true (hd.mpr hbd)), List.map_cons, ← i2]
                  · rw [if_neg hbd, if_neg (by simpa using mt hd.mp hbd), ← i2]
            · rename_i hne
              have hnone : bothWays est h k = none := by
                unfold bothWays
                split
                · rename_i l r h1 h2; exact (hne l r h1 h2).elim
                · rfl
              have hd : ¬Delivered est h sid s b k q := fun hd => hd.2.2.2 ⟨t, ht, hta, hcomp, hnone⟩
              rw [hnone, if_neg (by simpa using hd)]
              exact ih hr
        · rename_i hrt
          have hno := mt hcs.mpr hrt
          have hdp : devicePeer est h sid s k q = none := by
            unfold devicePeer
            cases ht : q.sessions.get? sid with
            | none => rfl
            | some t => exact if_neg fun hc => hno ⟨t, ht, hc.2⟩
          rw [hdp]
          split at hr
          · cases hr
          · rename_i y hy
            obtain ⟨xs, ds⟩ := y
            cases hr
            obtain ⟨i1, i2⟩ := ih hy
            refine ⟨i1, ?_⟩
            have hd : Delivered est h sid s b k q ↔ (b && q.canReceiveDataTransfer sid) = true := by
              unfold Delivered
              rw [Bool.and_eq_true, receives_iff]
              constructor
              · rintro ⟨-, h3, h4, -⟩; exact ⟨h3, h4⟩
              · rintro ⟨h3, h4⟩
                exact ⟨hkh, h3, h4, fun ⟨t, ht, h1, h2, _⟩ => hno ⟨t, ht, h1, h2⟩⟩
            by_cases hbd : (b && q.canReceiveDataTransfer sid) = true
            · rw [if_pos hbd, if_pos (decide_eq_true (hd.mpr hbd)), List.map_cons, ← i2]
            · rw [if_neg hbd, if_neg (by simpa using mt hd.mp hbd), ← i2]

theorem data_ok {alive : Nat → Bool} {sid : UInt32} {s : Session} {l : List Device} {o : List Out}
    (hr : Pica.dataSends alive sid s l = .ok o) (hl : l ≠ []) :
    ∃ mac, s.appConfig.deviceMacAddress = some mac ∧ o = l.map fun q => .send q.handle (.data
      ⟨sid, .ok, mac.toU64, 1, s.data⟩) := by
  induction l generalizing o with
  | nil => exact absurd rfl hl
  | cons q l ih =>
    unfold Pica.dataSends at hr
    split at hr
    · cases hr
    · rename_i mac hm
      simp only [bind, Except.bind] at hr
      split at hr
      · cases hr
      · rename_i o₁ h1
        split at hr
        · cases hr
        · rename_i o₂ h2
          cases hr
          refine ⟨mac, hm, ?_⟩
          rw [(Pica.plain_sendUnwrap h1).1, List.map_cons]
          cases l with
          | nil => cases h2; rfl
          | cons q' l =>
            obtain ⟨mac', hm', rfl⟩ := ih h2 (by simp)
            rw [hm] at hm'; cases hm'
            rfl

/-! ### When the loops do not panic -/

/-- The address is a short one. -/
def IsShort (e : Peer) : Prop := ∃ a, e.address = .short a

theorem carries_short {e : Peer} {x : Measurement} (h : Carries e x) : IsShort e := ⟨h.1.choose, h.1.choose_spec.1⟩

theorem forall_short {l : List Peer} {ms : List Measurement} (h : List.Forall₂ Carries l ms) : ∀ e ∈ l, IsShort e := by
  induction h with
  | nil => simp
  | cons h _ ih =>
    intro e he
    rcases List.mem_cons.mp he with rfl | he
    · exact carries_short h
    · exact ih e he

theorem anchor_total {est : Estimator} {anchors : AMap MacAddress Anchor} {h : Nat} {dst : List MacAddress}
    (hs : ∀ e ∈ dst.filterMap (anchorPeer est anchors h), IsShort e) :
    ∃ ms, Pica.anchorMeasurements est anchors h dst = .ok ms := by
  induction dst with
  | nil => exact ⟨[], rfl⟩
  | cons m dst ih =>
    obtain ⟨xs, hxs⟩ := ih fun e he => hs e (by
      rw [List.filterMap_cons]; split
      · exact he
      · exact List.mem_cons_of_mem _ he)
    unfold Pica.anchorMeasurements
    split
    · exact ⟨xs, hxs⟩
    · rename_i a ha
      split
      · rename_i l r h1 h2
        have hp : anchorPeer est anchors h m = some ⟨a.handle, m, l, r⟩ := by
          unfold anchorPeer; rw [ha]; simp [bothWays_some h1 h2]
        obtain ⟨b, hb⟩ := hs ⟨a.handle, m, l, r⟩ (by rw [List.filterMap_cons, hp]; exact List.mem_cons_self ..)
        cases hb
        obtain ⟨x, hx⟩ := makeMeasurement_short b l r
        exact ⟨x :: xs, by rw [hx, hxs]; rfl⟩
      · exact ⟨xs, hxs⟩

theorem peer_total {est : Estimator} {h : Nat} {sid : UInt32} {s : Session} {b : Bool} {l : AMap Nat Device}
    (hh : ∀ e ∈ l, e.2.handle = e.1)
    (hm : ∀ e ∈ l, ∀ t, e.2.sessions.get? sid = some t → t.state = sessionStateActive → t.appConfig.deviceMacAddress ≠ none)
    (hsm : s.appConfig.deviceMacAddress = none → s.appConfig.dstMacAddress = [])
    (hs : ∀ e ∈ l.filterMap fun e => devicePeer est h sid s e.1 e.2, IsShort e) :
    ∃ x, Pica.peerLoop est h h sid s b l.values = .ok x := by
  induction l with
  | nil => exact ⟨_, rfl⟩
  | cons e l ih =>
    obtain ⟨k, q⟩ := e
    have hq : q.handle = k := hh _ (List.mem_cons_self ..)
    obtain ⟨y, hy⟩ := ih (fun e he => hh e (List.mem_cons_of_mem _ he)) (fun e he => hm e (List.mem_cons_of_mem _ he))
      fun e he => hs e (by
        rw [List.filterMap_cons]; split
        · exact he
        · exact List.mem_cons_of_mem _ he)
    obtain ⟨xs, ds⟩ := y
    change ∃ x, Pica.peerLoop est h h sid s b (q :: AMap.values l) = .ok x
    unfold Pica.peerLoop
    split
    · exact ⟨_, hy⟩
    · rename_i hk
      have hkh : k ≠ h := fun e => hk (hq.trans e)
      have hc : ∃ r, q.canStartRanging s sid = .ok r := by
        unfold Device.canStartRanging
        split
        · rename_i t ht
          split
          · rename_i hta
            exact isCompatible_some (hm (k, q) (List.mem_cons_self ..) t ht hta) hsm
          · exact ⟨_, rfl⟩
        · exact ⟨_, rfl⟩
      obtain ⟨r, hr⟩ := hc
      rw [hr, hy]
      simp only [bind, Except.bind]
      cases r with
      | false => exact ⟨_, rfl⟩
      | true =>
        obtain ⟨t, ht, hta, hcomp⟩ := (canStart_ok hr).mp rfl
        have hts : q.session sid = some t := ht
        have hmt := hm (k, q) (List.mem_cons_self ..) t ht hta
        cases hmac : t.appConfig.deviceMacAddress with
        | none => exact absurd hmac hmt
        | some mac =>
          rw [if_pos rfl]
          simp only [hts, Option.bind_some, hmac, hq]
          split
          · rename_i lo re h1 h2
            have hp : devicePeer est h sid s k q = some ⟨k, mac, lo, re⟩ := by
              unfold devicePeer
              rw [ht, Option.bind_some, if_pos ⟨hkh, hta, hcomp⟩, hmac, bothWays_some h1 h2]; rfl
            obtain ⟨a, ha⟩ := hs ⟨k, mac, lo, re⟩ (by rw [List.filterMap_cons, hp]; exact List.mem_cons_self ..)
            cases ha
            obtain ⟨x, hx⟩ := makeMeasurement_short a lo re
            rw [hx]
            exact ⟨_, rfl⟩
          · exact ⟨_, rfl⟩

theorem data_isSome {d : DataMessageRcv} : (Packet.data d).encode.isSome = true ↔ d.applicationData.length ≤ 65535 := by
  change (DataMessageRcv.encode d).isSome = true ↔ _
  unfold DataMessageRcv.encode
  rw [Option.isSome_map, Option.isSome_iff_exists]
  constructor
  · rintro ⟨b, hb⟩; exact ((full_dataRcv.enc _ _).mp hb).1.2.2.2.2
  · intro h; exact ⟨_, (full_dataRcv.enc d _).mpr ⟨⟨trivial, trivial, trivial, trivial, h⟩, rfl⟩⟩

theorem data_total {alive : Nat → Bool} {sid : UInt32} {s : Session} {l : List Device}
    (hm : s.appConfig.deviceMacAddress ≠ none) :
    (∃ o, Pica.dataSends alive sid s l = .ok o) ↔ (l ≠ [] → s.data.length ≤ 65535) ∧ ∀ q ∈ l, alive q.handle = true := by
  induction l with
  | nil => exact ⟨fun _ => ⟨by simp, by simp⟩, fun _ => ⟨_, rfl⟩⟩
  | cons q l ih =>
    cases hmac : s.appConfig.deviceMacAddress with
    | none => exact absurd hmac hm
    | some mac =>
      unfold Pica.dataSends
      rw [hmac]
      simp only [bind, Except.bind]
      unfold Pica.sendUnwrap
      by_cases h1 : s.data.length ≤ 65535
      · have h1' : (Packet.data ⟨sid, .ok, mac.toU64, 1, s.data⟩).encode.isSome = true := data_isSome.mpr h1
        rw [if_neg (by simpa [← Option.isSome_iff_ne_none] using h1')]
        by_cases h2 : alive q.handle = true
        · rw [if_neg (by simp [h2])]
          constructor
          · rintro ⟨o, ho⟩
            simp only at ho
            split at ho
            · cases ho
            · rename_i o' ho'
              have := (ih.mp ⟨o', ho'⟩).2
              exact ⟨fun _ => h1, by simpa [h2] using this⟩
          · rintro ⟨-, h3⟩
            obtain ⟨o, ho⟩ := ih.mpr ⟨fun _ => h1, fun q hq => h3 q (List.mem_cons_of_mem _ hq)⟩
            rw [ho]; exact ⟨_, rfl⟩
        · rw [if_pos (by simp [h2])]
          constructor
          · rintro ⟨o, ho⟩; cases ho
          · rintro ⟨-, h3⟩; exact absurd (h3 q (List.mem_cons_self ..)) h2
      · have h1' : (Packet.data ⟨sid, .ok, mac.toU64, 1, s.data⟩).encode.isNone = true := by
          rw [← Bool.not_eq_false, Option.isNone_eq_false_iff, data_isSome]; exact h1
        rw [if_pos h1']
        constructor
        · rintro ⟨o, ho⟩; cases ho
        · rintro ⟨h3, -⟩; exact absurd (h3 (by simp)) h1

end Pica

import Verif.Spec.Dispatch
import Verif.Proofs.Command
import Verif.Proofs.SetApp
/-! The dispatch of packets and the outcome of command handlers. -/

set_option linter.dupNamespace false

namespace Pica
open Spec Codec

/-! ### Outcome of the handlers -/

theorem releaseActive_ok {d : Device} (h : 0 < d.nActive) : ∃ x, d.releaseActive = .ok x := by
  unfold Device.releaseActive
  rw [if_neg (by omega)]
  exact ⟨_, rfl⟩

theorem nActive_pos {d : Device} (hi : DevInv d) {sid : UInt32} {s : Session} (hs : d.session sid = some s)
    (ha : s.state = .sessionStateActive) : 0 < d.nActive := by
  have h1 : 0 < activeCount d := AMap.count_pos (p := isActive) hs (by simp [isActive, ha])
  have := hi.count
  omega

/-- The answer of a handler has the group and opcode of the command. -/
theorem exec_code {d d' : Device} {tid : Nat} {c : Cmd} {r : Rsp} {e : List Effect} (h : d.exec tid c = .ok (d', r, e)) :
    rspCode r = cmdCode c := by
  cases c <;> simp only [Device.exec] at h
  case coreDeviceReset => cases h; rfl
  case coreGetDeviceInfo => unfold Device.coreGetDeviceInfo at h; split at h <;> cases h; rfl
  case coreGetCapsInfo => cases h; rfl
  case coreSetConfig => unfold Device.coreSetConfig at h; split at h <;> cases h; rfl
  case coreGetConfig ids =>
    cases h
    split <;> rfl
  case sessionInit =>
    unfold Device.sessionInit at h
    split at h
    · cases h; rfl
    · dsimp only at h
      split at h <;> cases h <;> rfl
  case sessionDeinit =>
    unfold Device.sessionDeinit at h
    split at h
    · simp only [bind, Except.bind] at h
      split at h
      · split at h <;> cases h
        rfl
      · cases h; rfl
    · cases h; rfl
  case sessionGetCount => cases h; rfl
  case sessionSetAppConfig =>
    unfold Device.sessionSetAppConfig at h
    split at h
    · cases h; rfl
    · split at h
      · cases h
      · split at h
        · cases h; rfl
        · split at h
          · cases h; rfl
          · simp only [bind, Except.bind] at h
            split at h
            · cases h
            · split at h
              · cases h; rfl
              · split at h <;> cases h <;> rfl
  case sessionGetAppConfig =>
    unfold Device.sessionGetAppConfig at h
    split at h <;> cases h
    · rfl
    · split <;> rfl
  case sessionGetState => unfold Device.sessionGetState at h; split at h <;> cases h <;> rfl
  case sessionUpdateMulticast =>
    unfold Device.sessionUpdateMulticast at h
    split at h
    · cases h; rfl
    · split at h
      · cases h; rfl
      · split at h <;> cases h <;> rfl
  case sessionStart =>
    unfold Device.sessionStart at h
    split at h
    · cases h; rfl
    · split at h
      · cases h; rfl
      · split at h <;> cases h; rfl
  case sessionStop =>
    unfold Device.sessionStop at h
    split at h
    · cases h; rfl
    · split at h
      · cases h; rfl
      · simp only [bind, Except.bind] at h
        split at h <;> cases h
        rfl
  case sessionGetRangingCount => unfold Device.sessionGetRangingCount at h; split at h <;> cases h <;> rfl
  case androidGetPowerStats => cases h; rfl
  case androidSetCountryCode => cases h; rfl

theorem setConfigLoop_length (c : DeviceConfig) (ps : List ConfigParameter) :
    (Device.setConfigLoop c ps).2.length ≤ ps.length := by
  induction ps generalizing c with
  | nil => exact Nat.le_refl _
  | cons p ps ih =>
    simp only [Device.setConfigLoop, List.length_append, List.length_cons]
    have h1 : (Device.setConfigParam c p).2.length ≤ 1 := by
      unfold Device.setConfigParam; split <;> [simp; split <;> simp]
    have h2 := ih (Device.setConfigParam c p).1
    omega

theorem parseControlees_length {a : UpdateMulticastListAction} {pl : Bytes} {l : List (Arr 2)}
    (h : Device.parseControlees a pl = some l) : l.length ≤ 255 := by
  have key : ∀ n (x : List (WireControlee n)), (Pdl.controleeList n).decFull pl = some x → x.length ≤ 255 := by
    intro n x hx
    unfold Codec.decFull Pdl.controleeList Codec.counted8 at hx
    dsimp only at hx
    cases pl with
    | nil => cases hx
    | cons b r =>
      dsimp only at hx
      split at hx
      · rename_i y hy
        cases hx
        have hl : ∀ n (m : Nat) (bs r : Bytes) (xs : List (WireControlee n)),
            Codec.decRepeat (Pdl.controlee n) m bs = some (xs, r) → xs.length = m := by
          intro n m
          induction m with
          | zero => intro bs r xs h; cases h; rfl
          | succ m ih =>
            intro bs r xs h
            simp only [Codec.decRepeat, Option.bind_eq_bind, Option.bind_eq_some_iff, Prod.exists, Option.pure_def,
              Option.some.injEq, Prod.mk.injEq] at h
            obtain ⟨x, q, -, y, q', hy, rfl, -⟩ := h
            simp [ih _ _ _ hy]
        have := hl _ _ _ _ _ hy
        have := b.toNat_lt
        omega
      · cases hx
  unfold Device.parseControlees at h
  split at h
  all_goals
    obtain ⟨x, hx, rfl⟩ := Option.map_eq_some_iff.mp h
    rw [List.length_map]
    exact key _ _ hx

theorem add_rsp_length (b : Bool) (l : List (Arr 2)) (acc : Device.MulticastAcc) :
    (l.foldl (Device.addControlee b) acc).rsp.length ≤ acc.rsp.length + l.length := by
  induction l generalizing acc with
  | nil => simp
  | cons a l ih =>
    rw [List.foldl_cons]
    have h := ih (Device.addControlee b acc a)
    have : (Device.addControlee b acc a).rsp.length ≤ acc.rsp.length + 1 := by
      unfold Device.addControlee
      split
      · simp
      · split
        · simp
        · split <;> simp
    simp only [List.length_cons]
    omega

theorem remove_rsp_length (sid : UInt32) (n : UInt8) (l : List (Arr 2)) (acc : Device.MulticastAcc) :
    (l.foldl (Device.removeControlee sid n) acc).rsp.length ≤ acc.rsp.length + l.length := by
  induction l generalizing acc with
  | nil => simp
  | cons a l ih =>
    rw [List.foldl_cons]
    have h := ih (Device.removeControlee sid n acc a)
    have : (Device.removeControlee sid n acc a).rsp.length ≤ acc.rsp.length + 1 := by
      unfold Device.removeControlee
      split <;> simp
    simp only [List.length_cons]
    omega

theorem update_rsp_length (s : Session) (sid : UInt32) (a : UpdateMulticastListAction) (l : List (Arr 2)) :
    (Device.updateControlees s sid a l).rsp.length ≤ l.length := by
  unfold Device.updateControlees
  dsimp only
  split
  · have := add_rsp_length false l ⟨s.appConfig.dstMacAddress, .ok, [], [], []⟩; simpa using this
  · have := add_rsp_length (decide (s.appConfig.stsConfig ≠ .provisionedForResponderSubSessionKey)) l
      ⟨s.appConfig.dstMacAddress, .ok, [], [], []⟩
    simp only [List.length_nil, Nat.zero_add] at this
    exact this
  · have := add_rsp_length (decide (s.appConfig.stsConfig ≠ .provisionedForResponderSubSessionKey)) l
      ⟨s.appConfig.dstMacAddress, .ok, [], [], []⟩
    simp only [List.length_nil, Nat.zero_add] at this
    exact this
  · have := remove_rsp_length sid s.appConfig.inBandTerminationAttemptCount l ⟨s.appConfig.dstMacAddress, .ok, [], [], []⟩
    simp only [List.length_nil, Nat.zero_add] at this
    split <;> exact this

theorem caps_fit : defaultCapsInfo.length ≤ 255 ∧ ∀ x ∈ defaultCapsInfo, CapTlvType.isTag x.t.code ∧ x.v.length ≤ 255 := by
  decide

/-- The answer of a handler can be encoded, except when a long parameter is read. -/
theorem exec_fits {d d' : Device} {tid : Nat} {c : Cmd} {r : Rsp} {e : List Effect} (hc : cmdFits c)
    (h : d.exec tid c = .ok (d', r, e)) : ¬rspFits r ↔
      ∃ sid ids s, c = .sessionGetAppConfig sid ids ∧ d.session sid = some s ∧
        (∀ i ∈ ids, View.of s.appConfig i.code ≠ none) ∧
        (∃ i ∈ ids, ∃ v, View.of s.appConfig i.code = some v ∧ 255 < v.length) := by
  have easy : (∀ sid ids, c ≠ .sessionGetAppConfig sid ids) → rspFits r → (¬rspFits r ↔
      ∃ sid ids s, c = .sessionGetAppConfig sid ids ∧ d.session sid = some s ∧
        (∀ i ∈ ids, View.of s.appConfig i.code ≠ none) ∧
        (∃ i ∈ ids, ∃ v, View.of s.appConfig i.code = some v ∧ 255 < v.length)) := by
    intro h1 h2
    constructor
    · intro h; exact absurd h2 h
    · rintro ⟨sid, ids, _, h, -⟩; exact absurd h (h1 sid ids)
  have hcode := exec_code h
  cases c <;> simp only [Device.exec] at h
  case coreDeviceReset => cases h; exact easy (by simp) trivial
  case coreGetDeviceInfo =>
    unfold Device.coreGetDeviceInfo at h; split at h <;> cases h; exact easy (by simp) (by simp [rspFits])
  case coreGetCapsInfo => cases h; exact easy (by simp) caps_fit
  case coreSetConfig ps =>
    unfold Device.coreSetConfig at h; split at h <;> cases h
    exact easy (by simp) (Nat.le_trans (setConfigLoop_length _ _) hc.1)
  case coreGetConfig ids =>
    cases h
    have hl : ids.length ≤ 255 := hc
    refine easy (by simp) ?_
    split
    · refine ⟨Nat.le_trans (List.length_filterMap_le _ _) hl, ?_⟩
      intro x hx
      obtain ⟨i, -, hi⟩ := List.mem_filterMap.mp hx
      obtain ⟨v, hv, rfl⟩ := Option.map_eq_some_iff.mp hi
      unfold Device.getConfigParam at hv
      split at hv
      · cases hv; simp
      · split at hv <;> cases hv; simp
    · refine ⟨Nat.le_trans (List.length_filterMap_le _ _) hl, ?_⟩
      intro x hx
      obtain ⟨i, -, hi⟩ := List.mem_filterMap.mp hx
      split at hi <;> cases hi
      simp
  case sessionGetAppConfig sid ids =>
    have hl : ids.length ≤ 255 := hc.1
    unfold Device.sessionGetAppConfig at h
    split at h
    · rename_i hs
      cases h
      constructor
      · intro h; exact absurd ⟨by simp, by simp⟩ h
      · rintro ⟨_, _, s, h, h', -⟩
        cases h
        rw [hs] at h'; cases h'
    · rename_i s hs
      cases h
      split
      · rename_i hinv
        have hall : ∀ i ∈ ids, View.of s.appConfig i.code ≠ none := by
          intro i hi hn
          have : i ∈ ids.filter (fun id => (s.appConfig.get id).isNone) :=
            List.mem_filter.mpr ⟨hi, by rw [show s.appConfig.get i = none from hn]; rfl⟩
          rw [List.isEmpty_iff.mp hinv] at this
          cases this
        constructor
        · intro hr
          refine ⟨sid, ids, s, rfl, hs, hall, ?_⟩
          by_contra hno
          apply hr
          refine ⟨Nat.le_trans (List.length_filterMap_le _ _) hl, ?_⟩
          intro x hx
          obtain ⟨i, hi, hx⟩ := List.mem_filterMap.mp hx
          obtain ⟨v, hv, rfl⟩ := Option.map_eq_some_iff.mp hx
          refine ⟨hc.2 i hi, Nat.le_of_not_lt fun hlt => hno ⟨i, hi, v, hv, hlt⟩⟩
        · rintro ⟨_, _, s', h1, h2, -, i, hi, v, hv, hlt⟩ ⟨-, hr⟩
          cases h1
          rw [hs] at h2; cases h2
          have := (hr ⟨i, v⟩ (List.mem_filterMap.mpr ⟨i, hi, by rw [show s.appConfig.get i = some v from hv]; rfl⟩)).2
          exact absurd this (Nat.not_le_of_lt hlt)
      · rename_i hinv
        constructor
        · intro h; exact absurd ⟨by simp, by simp⟩ h
        · rintro ⟨_, _, s', h1, h2, h3, -⟩
          cases h1
          rw [hs] at h2; cases h2
          exfalso
          apply hinv
          rw [List.isEmpty_iff, List.filter_eq_nil_iff]
          intro i hi hn
          exact h3 i hi (Option.isNone_iff_eq_none.mp hn)
  case sessionSetAppConfig sid tlvs =>
    refine easy (by simp) ?_
    unfold Device.sessionSetAppConfig at h
    have hnil : ∀ s, rspFits (.sessionSetAppConfig s []) := fun s => ⟨by simp, by simp⟩
    split at h
    · cases h; exact hnil _
    · split at h
      · cases h
      · split at h
        · cases h; exact hnil _
        · split at h
          · cases h; exact hnil _
          · simp only [bind, Except.bind] at h
            split at h
            · cases h
            · rename_i y hy
              obtain ⟨bad, ha, hinv⟩ := loop_ok (c' := y.1) (inv := y.2) hy
              have hb := ha.bad_sub
              have hfit : ∀ st, rspFits (.sessionSetAppConfig st y.2) := by
                intro st
                rw [hinv]
                refine ⟨?_, ?_⟩
                · have := hb.1; simp only [List.length_map, tlvPairs] at this ⊢; exact Nat.le_trans this hc.1
                · intro x hx
                  obtain ⟨i, hi, rfl⟩ := List.mem_map.mp hx
                  obtain ⟨z, hz, rfl⟩ := hb.2 i hi
                  obtain ⟨t, ht, rfl⟩ := List.mem_map.mp hz
                  exact (hc.2 t ht).1
              split at h
              · cases h; exact hnil _
              · split at h <;> cases h <;> exact hfit _
  case sessionUpdateMulticast sid a pl =>
    refine easy (by simp) ?_
    unfold Device.sessionUpdateMulticast at h
    split at h
    · cases h; exact (by simp [rspFits])
    · split at h
      · cases h; exact (by simp [rspFits])
      · split at h
        · cases h; exact (by simp [rspFits])
        · rename_i hp
          cases h
          exact Nat.le_trans (update_rsp_length _ _ _ _) (parseControlees_length hp)
  all_goals
    refine easy (by simp) ?_
    cases r <;> simp_all [rspCode, cmdCode, rspFits]

/-- Which commands fail in their handler. -/
theorem exec_error {d : Device} {tid : Nat} {c : Cmd} (hi : DevInv d) (hf : cmdFits c) :
    (∃ x, finish (d.exec tid c) = .error x) ↔ Fatal d c := by
  have hfin : ∀ y, d.exec tid c = .ok y → ((∃ x, finish (d.exec tid c) = .error x) ↔ ¬rspFits y.2.1) := by
    rintro ⟨d', r, e⟩ h
    rw [h]
    simp only [finish, Device.sending]
    by_cases hr : rspFits r
    · rw [if_pos (rsp_isSome.mpr hr)]; simp [hr]
    · rw [if_neg (fun h => hr (rsp_isSome.mp h))]; simp [hr]
  have hok : (∀ sid ids, c ≠ .sessionGetAppConfig sid ids) → (∃ y, d.exec tid c = .ok y) → ¬Fatal d c →
      ((∃ x, finish (d.exec tid c) = .error x) ↔ Fatal d c) := by
    rintro hc ⟨y, hy⟩ hn
    rw [hfin y hy, exec_fits (d' := y.1) (r := y.2.1) (e := y.2.2) hf hy]
    constructor
    · rintro ⟨_, _, _, h, -⟩; exact absurd h (hc _ _)
    · intro h; exact absurd h hn
  have herr : ∀ x, d.exec tid c = .error x → Fatal d c → ((∃ x, finish (d.exec tid c) = .error x) ↔ Fatal d c) := by
    intro x hx hf
    rw [hx]
    exact ⟨fun _ => hf, fun _ => ⟨x, rfl⟩⟩
  cases c
  case coreDeviceReset => exact hok (by simp) ⟨_, rfl⟩ (by rintro ⟨⟩)
  case coreGetDeviceInfo =>
    by_cases hs : d.state = .deviceStateReady
    · exact hok (by simp) ⟨_, by (simp only [Device.exec, Device.coreGetDeviceInfo, if_pos hs]; try rfl)⟩ (by rintro ⟨⟩; contradiction)
    · exact herr _ (by (simp only [Device.exec, Device.coreGetDeviceInfo, if_neg hs]; try rfl)) (.deviceInfo hs)
  case coreGetCapsInfo => exact hok (by simp) ⟨_, rfl⟩ (by rintro ⟨⟩)
  case coreSetConfig =>
    by_cases hs : d.state = .deviceStateReady
    · exact hok (by simp) ⟨_, by (simp only [Device.exec, Device.coreSetConfig, if_pos hs]; try rfl)⟩
        (by rintro ⟨⟩; contradiction)
    · exact herr _ (by (simp only [Device.exec, Device.coreSetConfig, if_neg hs]; try rfl)) (.setConfig _ hs)
  case coreGetConfig => exact hok (by simp) ⟨_, rfl⟩ (by rintro ⟨⟩)
  case sessionInit => exact hok (by simp) ⟨_, rfl⟩ (by rintro ⟨⟩)
  case sessionDeinit sid =>
    refine hok (by simp) ?_ (by rintro ⟨⟩)
    simp only [Device.exec, Device.sessionDeinit]
    cases hs : d.session sid with
    | none => exact ⟨_, rfl⟩
    | some s =>
      dsimp only
      by_cases ha : s.state = .sessionStateActive
      · obtain ⟨y, hy⟩ := releaseActive_ok (nActive_pos hi hs ha)
        rw [if_pos ha, hy]; exact ⟨_, rfl⟩
      · rw [if_neg ha]; exact ⟨_, rfl⟩
  case sessionGetCount => exact hok (by simp) ⟨_, rfl⟩ (by rintro ⟨⟩)
  case sessionSetAppConfig sid tlvs =>
    cases hs : d.session sid with
    | none =>
      refine hok (by simp) ⟨_, by (simp only [Device.exec, Device.sessionSetAppConfig, hs]; try rfl)⟩ ?_
      intro h
      cases h <;> (rename_i h; rw [show d.session sid = some _ by assumption] at hs; cases hs)
    | some s =>
      have hs' : ∀ s', d.sessions.get? sid = some s' → s' = s := by
        intro s' h
        have : d.session sid = some s' := h
        rw [hs] at this; cases this; rfl
      by_cases hty : s.sessionType ≠ .firaRangingSession ∧ s.sessionType ≠ .firaRangingAndInBandDataSession
      · exact herr .sessionType (by (simp only [Device.exec, Device.sessionSetAppConfig, hs, if_pos hty]; try rfl))
          (.sessionType sid tlvs s hs hty.1 hty.2)
      · by_cases hact : s.state = .sessionStateActive ∧ tlvs.any (fun t => decide (t.cfgId = .aoaResultReq)) = true
        · refine hok (by simp) ⟨_, by (simp only [Device.exec, Device.sessionSetAppConfig, hs, if_neg hty, if_pos hact]; try rfl)⟩ ?_
          intro h
          cases h with
          | sessionType _ _ s' h h1 h2 => rw [hs' _ h] at h1 h2; exact hty ⟨h1, h2⟩
          | macMode _ _ s' h h1 _ =>
            rw [hs' _ h, hact.1] at h1
            rcases h1 with h1 | ⟨-, h1⟩
            · cases h1
            · obtain ⟨t, ht, he⟩ := List.any_eq_true.mp hact.2
              have := of_decide_eq_true he
              exact h1 t ht (by rw [this]; rfl)
        · by_cases hst : s.state ≠ .sessionStateInit ∧ s.state ≠ .sessionStateActive
          · refine hok (by simp) ⟨_, by (simp only [Device.exec, Device.sessionSetAppConfig, hs, if_neg hty, if_neg hact, if_pos hst]; try rfl)⟩ ?_
            intro h
            cases h with
            | sessionType _ _ s' h h1 h2 => rw [hs' _ h] at h1 h2; exact hty ⟨h1, h2⟩
            | macMode _ _ s' h h1 _ =>
              rw [hs' _ h] at h1
              rcases h1 with h1 | ⟨h1, -⟩
              · exact hst.1 h1
              · exact hst.2 h1
          · have hgate : s.state = .sessionStateInit ∨
                s.state = .sessionStateActive ∧ ∀ t ∈ tlvs, t.cfgId.code ≠ 0x0d := by
              by_cases h1 : s.state = .sessionStateInit
              · exact .inl h1
              · have h2 : s.state = .sessionStateActive := by
                  by_contra h2; exact hst ⟨h1, h2⟩
                refine .inr ⟨h2, fun t ht he => hact ⟨h2, List.any_eq_true.mpr ⟨t, ht, ?_⟩⟩⟩
                have : t.cfgId = .aoaResultReq := by
                  cases hc : t.cfgId; rw [hc] at he; cases he; rfl
                exact decide_eq_true this
            cases hl : Device.setAppConfigLoop s.appConfig tlvs with
            | error x =>
              refine herr x (by (simp only [Device.exec, Device.sessionSetAppConfig, hs, if_neg hty, if_neg hact, if_neg hst, hl, bind, Except.bind]; try rfl)) (.macMode sid tlvs s hs hgate (loop_error hl))
            | ok y =>
              obtain ⟨bad, ha, hinv⟩ := loop_ok (c' := y.1) (inv := y.2) hl
              refine hok (by simp) ?_ ?_
              · simp only [Device.exec, Device.sessionSetAppConfig, hs, if_neg hty, if_neg hact,
                  if_neg hst, hl, bind, Except.bind]
                split
                · exact ⟨_, rfl⟩
                · split <;> exact ⟨_, rfl⟩
              · intro h
                cases h with
                | sessionType _ _ s' h h1 h2 => rw [hs' _ h] at h1 h2; exact hty ⟨h1, h2⟩
                | macMode _ _ s' h _ h1 => rw [hs' _ h] at h1; exact h1 _ _ ha
  case sessionGetAppConfig sid ids =>
    have hy : d.exec tid (.sessionGetAppConfig sid ids) = .ok (d.sessionGetAppConfig sid ids) := rfl
    rw [hfin _ hy, exec_fits (d' := (d.sessionGetAppConfig sid ids).1) (r := (d.sessionGetAppConfig sid ids).2.1)
      (e := (d.sessionGetAppConfig sid ids).2.2) hf hy]
    constructor
    · rintro ⟨_, _, s, h, h1, h2, h3⟩; cases h; exact .longValue _ _ s h1 h2 h3
    · rintro ⟨⟩; rename_i s h1 h2 h3; exact ⟨_, _, s, rfl, h1, h2, h3⟩
  case sessionGetState => exact hok (by simp) ⟨_, rfl⟩ (by rintro ⟨⟩)
  case sessionUpdateMulticast => exact hok (by simp) ⟨_, rfl⟩ (by rintro ⟨⟩)
  case sessionStart sid =>
    cases hs : d.session sid with
    | none =>
      refine hok (by simp) ⟨_, by (simp only [Device.exec, Device.sessionStart, hs]; try rfl)⟩ ?_
      intro h; cases h; rw [show d.session sid = some _ by assumption] at hs; cases hs
    | some s =>
      have hs' : ∀ s', d.sessions.get? sid = some s' → s' = s := by
        intro s' h
        have : d.session sid = some s' := h
        rw [hs] at this; cases this; rfl
      by_cases h1 : s.state ≠ .sessionStateIdle
      · refine hok (by simp) ⟨_, by (simp only [Device.exec, Device.sessionStart, hs, if_pos h1]; try rfl)⟩ ?_
        intro hfatal
        cases hfatal with
        | start _ s' h h2 h3 => rw [hs' _ h] at h2; exact h1 h2
      · by_cases h2 : s.rangingTask.isSome = true
        · exact herr _ (by (simp only [Device.exec, Device.sessionStart, hs, if_neg h1, if_pos h2]; try rfl))
            (.start sid s hs (by simpa using h1) (by intro h; rw [h] at h2; cases h2))
        · refine hok (by simp) ⟨_, by (simp only [Device.exec, Device.sessionStart, hs, if_neg h1, if_neg h2]; try rfl)⟩ ?_
          intro hfatal
          cases hfatal with
          | start _ s' h _ h3 =>
            rw [hs' _ h] at h3
            exact h2 (Option.isSome_iff_ne_none.mpr h3)
  case sessionStop sid =>
    refine hok (by simp) ?_ (by rintro ⟨⟩)
    simp only [Device.exec, Device.sessionStop]
    cases hs : d.session sid with
    | none => exact ⟨_, rfl⟩
    | some s =>
      dsimp only
      by_cases ha : s.state ≠ .sessionStateActive
      · rw [if_pos ha]; exact ⟨_, rfl⟩
      · rw [if_neg ha]
        have hp := nActive_pos hi hs (by simpa using ha)
        simp only [bind, Except.bind]
        have : ∀ s', ∃ x, (d.putSession sid s').releaseActive = .ok x := fun s' => releaseActive_ok hp
        obtain ⟨x, hx⟩ := this (s.stopRangingTask.1.setState .sessionStateIdle
          .stateChangeWithSessionManagementCommands).1
        rw [hx]; exact ⟨_, rfl⟩
  case sessionGetRangingCount => exact hok (by simp) ⟨_, rfl⟩ (by rintro ⟨⟩)
  case androidGetPowerStats => exact hok (by simp) ⟨_, rfl⟩ (by rintro ⟨⟩)
  case androidSetCountryCode => exact hok (by simp) ⟨_, rfl⟩ (by rintro ⟨⟩)

end Pica

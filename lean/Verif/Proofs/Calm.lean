import Verif.Spec.Schedule
import Verif.Proofs.Tame
import Verif.Props.Dispatch
import Verif.Props.System
/-! The emulator with hosts that keep to the rules of `Spec/Schedule.lean`. -/

set_option linter.dupNamespace false

namespace Pica
open Spec SessionState

/-! ### Steps of devices and of the emulator -/

/-- As `devMove_noStrays`, with sessions that may be created anew. -/
theorem devMove_noStrays' {tid : Nat} {sc : Scope} {d d' : Device} {e : List Effect} (h : DevMove tid sc d e d') (hi : DevInv d)
    (hno : sc.leak → ∀ x, sc.sess x → stateOf d x = sessionStateActive → stateOf d' x ≠ sessionStateIdle)
    (hx : NoStrays d) : NoStrays d' := by
  cases h with
  | reset => rw [reset_eq]; intro sid s hs; cases hs
  | session sid k es ed _ o n st hs hc he hl hsc hlk =>
    intro x s' hs' hst
    change AMap.get? (AMap.put d.sessions sid o) x = some s' at hs'
    rw [AMap.get?_put] at hs'
    split at hs'
    · rename_i hxs
      subst hxs
      have hd := hx sid
      have hinv := hi.sess sid
      have hleak : k = .leak → stOf (d.session sid) = sessionStateActive → stOf o ≠ sessionStateIdle := by
        rintro rfl ha
        have := hno (hlk rfl) sid hsc ha
        rw [stateOf_put, if_pos rfl] at this
        exact this
      change ∀ s, d.session sid = some s → _ at hd
      generalize d.session sid = o₀ at hs hd hinv hleak
      cases hs with
      | keep => exact hd s' hs' hst
      | create ty => cases hs'; rfl
      | replace s ty h => cases hs'; rfl
      | replaceActive s ty h => cases hs'; rfl
      | remove => cases hs'
      | removeActive => cases hs'
      | configure s c h1 h2 h3 => cases hs'; exact (hinv s rfl).noTask (.inl h2)
      | reconfigure s c h1 h2 h3 => cases hs'; exact absurd h2 hst
      | multicast s es dst h1 h2 h3 => cases hs'; exact hd s rfl hst
      | emptiedIdle s es h1 h2 => cases hs'; exact hd s rfl hst
      | emptiedActive s es h1 h2 => exact absurd rfl (hleak rfl h1)
      | start s h1 h2 => cases hs'; exact absurd rfl hst
      | stop s r h1 h2 => cases hs'; rfl
      | data s b => cases hs'; exact hd s rfl hst
      | round s n => cases hs'; exact hd s rfl hst
    · exact hx x s' hs' hst
  | config c cc hc => exact hx
  | reorder l hp =>
    intro sid s hs
    change AMap.get? l sid = _ at hs
    rw [AMap.get?_perm hi.nodup hp] at hs
    exact hx sid s hs

/-- Only the start of a session increases the count. -/
theorem devMove_nActive {tid : Nat} {sc : Scope} {d d' : Device} {e : List Effect} (h : DevMove tid sc d e d')
    (hs : starts e = []) : d'.nActive ≤ d.nActive := by
  cases h with
  | reset => rw [reset_eq]; exact Nat.zero_le _
  | session sid k es ed _ o n st hm hc he hl hsc hlk =>
    show n ≤ d.nActive
    have hse : starts es = [] := by
      rcases he with rfl | rfl <;> rw [starts_append, List.append_eq_nil_iff] at hs
      · exact hs.1
      · exact hs.2
    cases k with
    | quiet => exact Nat.le_of_eq hc.1
    | leak => exact Nat.le_of_eq hc.1
    | release => rw [hc.1]; omega
    | start =>
      generalize d.session sid = o₀ at hm
      cases hm
      cases hse
  | config c cc hc => exact Nat.le_refl _
  | reorder l hp => exact Nat.le_refl _

theorem step_starts {p p' : Pica} {env : Env} {c : Command} {out : List Out} (hi : p.PInv)
    (hst : p.step env c = .ok (p', out)) {t h : Nat} {sid : UInt32} (hm : (t, h, sid) ∈ startsOut out) : Starts h c := by
  cases c with
  | uciPacket y bytes =>
    rw [mem_startsOut] at hm
    cases hd : p.devices.get? y with
    | none =>
      rw [Props.uci_absent hd] at hst
      rw [show out = [] from (congrArg Prod.snd (Except.ok.inj hst)).symm] at hm
      cases hm
    | some d =>
      rw [Props.uci_step hd] at hst
      cases hx : d.receivePacket env.tid bytes with
      | error z => rw [hx] at hst; cases hst
      | ok z =>
        obtain ⟨d', r, e⟩ := z
        rw [hx] at hst
        have hout : out = (r.map (.send y)).toList ++ e.map (.effect y) :=
          (congrArg Prod.snd (Except.ok.inj hst)).symm
        rw [hout] at hm
        rw [Pica.effectsOf_append, Pica.effectsOf_map, show effectsOf h (r.map (Out.send y)).toList = [] by cases r <;> rfl,
          List.nil_append] at hm
        by_cases hy : y = h
        · subst hy
          rw [if_pos rfl] at hm
          cases receive_ok hx with
          | cmd _ c _ rsp _ hc hr hexec hf =>
            rcases exec_starts hexec with h3 | ⟨sid', rfl, h3⟩
            · rw [h3] at hm; cases hm
            · exact ⟨bytes, sid', rfl, hc⟩
          | _ => cases hm
        · rw [if_neg hy] at hm; cases hm
  | _ =>
    exfalso
    rw [Pica.step_noStarts hi hst (by simp)] at hm
    cases hm

/-- A device that is READY stays so unless a session is started. -/
theorem step_ready {p p' : Pica} {env : Env} {c : Command} {out : List Out} (hi : p.PInv)
    (hst : p.step env c = .ok (p', out)) (h : Nat) (hs : ¬Starts h c)
    (hr : ∀ d, p.devices.get? h = some d → d.state = .deviceStateReady) :
    ∀ d', p'.devices.get? h = some d' → d'.state = .deviceStateReady := by
  intro d' hd'
  have hstep := Pica.step_dev hi hst h
  have hi' := Pica.step_inv hi hst
  have hnil : starts (effectsOf h out) = [] := by
    apply List.eq_nil_iff_forall_not_mem.mpr
    rintro ⟨t, sid⟩ hm
    exact hs (step_starts hi hst (mem_startsOut.mpr hm))
  rw [hd'] at hstep
  generalize ho : p.devices.get? h = o at hstep
  generalize effectsOf h out = e at hstep hnil
  generalize ho' : some d' = o' at hstep
  have hinv := (hi'.dev h d' hd').2.2.2
  cases hstep with
  | move d d'' e hm =>
    cases ho'
    have h0 := (hi.dev h d ho).2.2.2.state
    rw [hr d ho] at h0
    have hn : d.nActive = 0 := by
      by_contra hn
      rw [if_neg hn] at h0; cases h0
    have := devMove_nActive hm hnil
    rw [hinv.state, if_pos (by omega)]
  | connect _ _ => cases ho'; rw [Device.init, Device.setState_eq]
  | disconnect => cases ho'
  | absent => cases ho'

theorem ready_inactive {d : Device} (hi : DevInv d) (hr : d.state = .deviceStateReady) (sid : UInt32) :
    stateOf d sid ≠ sessionStateActive := by
  intro ha
  have h0 := hi.state
  rw [hr] at h0
  have hn : d.nActive = 0 := by
    by_contra hn
    rw [if_neg hn] at h0; cases h0
  have hc := hi.count
  rw [hn, activeCount_eq] at hc
  cases hs : d.sessions.get? sid with
  | none =>
    have : d.session sid = none := hs
    rw [stateOf_eq, this] at ha; cases ha
  | some s =>
    have hss : d.session sid = some s := hs
    rw [stateOf_eq, hss] at ha
    have hpos := AMap.count_pos (p := isActive) hs (by simpa [isActive, stOf] using ha)
    omega

/-- Adding controlees does not take a session out of ACTIVE. -/
theorem multicast_add_state {d d' : Device} {tid : Nat} {sid : UInt32} {payload : Bytes} {r : Rsp} {e : List Effect}
    (h : d.exec tid (.sessionUpdateMulticast sid .addControlee payload) = .ok (d', r, e)) (hp : payload ≠ [0]) :
    stateOf d' sid = stateOf d sid := by
  cases hs : d.sessions.get? sid with
  | none =>
    change Except.ok (d.sessionUpdateMulticast sid .addControlee payload) = _ at h
    unfold Device.sessionUpdateMulticast Device.session at h
    rw [hs] at h
    cases h; rfl
  | some s =>
    have hss : d.session sid = some s := hs
    by_cases hu : Updatable s
    · cases hq : Device.parseControlees .addControlee payload with
      | none =>
        change Except.ok (d.sessionUpdateMulticast sid .addControlee payload) = _ at h
        unfold Device.sessionUpdateMulticast at h
        simp only [hss, if_neg (Props.updatable_iff.mp hu), hq] at h
        cases h; rfl
      | some addrs =>
        have hcl := (parseControlees_iff .addControlee payload addrs).mp hq
        have heq := Props.multicast_eq (tid := tid) hs hu hcl
        have hd' : d'.sessions.get? sid = some (withList s (Device.updateControlees s sid .addControlee addrs).dst) := by
          rw [heq] at h
          rw [show d' = _ from (congrArg Prod.fst (Except.ok.inj h)).symm]
          exact AMap.get?_insert_self _ _ _
        have hne : (Device.updateControlees s sid .addControlee addrs).dst ≠ [] := by
          intro hnil
          obtain ⟨items, -, hpay, haddr⟩ := hcl
          have hne : addrs ≠ [] := by
            rintro rfl
            have : items = [] := List.map_eq_nil_iff.mp haddr.symm
            subst this
            exact hp hpay
          obtain ⟨x, hx⟩ := List.exists_mem_of_ne_nil _ hne
          obtain ⟨_, _, _, _, _, _, h6⟩ := Props.C30_added s.appConfig.dstMacAddress addrs
          have hnil' : afterAdd s.appConfig.dstMacAddress addrs = [] := by
            have : (addrs.foldl (Device.addControlee false) ⟨s.appConfig.dstMacAddress, .ok, [], [], []⟩).dst = [] := hnil
            rw [add_fold] at this; exact this
          rw [hnil'] at h6
          rcases h6 x hx with h | h <;> cases h
        unfold stateOf
        rw [hd', hs]
        show (if _ then _ else s.state) = s.state
        rw [if_neg hne]
    · change Except.ok (d.sessionUpdateMulticast sid .addControlee payload) = _ at h
      unfold Device.sessionUpdateMulticast at h
      simp only [hss, if_pos (not_not.mp (fun hn => hu (Props.updatable_iff.mpr hn)))] at h
      cases h; rfl

theorem init_state {d d' : Device} {tid : Nat} {sid : UInt32} {ty : SessionType} {r : Rsp} {e : List Effect}
    (h : d.exec tid (.sessionInit sid ty) = .ok (d', r, e)) :
    stateOf d' sid = stateOf d sid ∨ stateOf d' sid ≠ sessionStateIdle := by
  change Except.ok (d.sessionInit sid ty) = _ at h
  have hd : (d.sessionInit sid ty).1 = d' := congrArg Prod.fst (Except.ok.inj h)
  rw [← hd]
  unfold Device.sessionInit
  split
  · exact .inl rfl
  · right
    dsimp only
    split
    · rw [stateOf_eq]
      show stOf ((d.sessions.insert sid _).get? sid) ≠ _
      rw [AMap.get?_insert_self]; intro hq; cases hq
    · rw [stateOf_eq]
      show stOf ((d.sessions.insert sid _).get? sid) ≠ _
      rw [AMap.get?_insert_self]
      show ((Session.new sid ty d.handle).setState _ _).1.state ≠ _
      unfold Session.setState
      split <;> (intro hq; cases hq)

theorem step_other {p p' : Pica} {env : Env} {y h : Nat} {bytes : Bytes} {out : List Out}
    (hst : p.step env (.uciPacket y bytes) = .ok (p', out)) (hne : y ≠ h) : p'.devices.get? h = p.devices.get? h := by
  cases hd : p.devices.get? y with
  | none =>
    rw [Props.uci_absent hd] at hst
    rw [show p' = p from (congrArg Prod.fst (Except.ok.inj hst)).symm]
  | some d =>
    rw [Props.uci_step hd] at hst
    cases hx : d.receivePacket env.tid bytes with
    | error z => rw [hx] at hst; cases hst
    | ok z =>
      rw [hx] at hst
      rw [show p' = _ from (congrArg Prod.fst (Except.ok.inj hst)).symm]
      show (p.devices.insert y _).get? h = _
      rw [AMap.get?_insert, if_neg hne]

/-! ### The emulator -/

/-- A session of a careful host after at most `n` rounds. -/
structure Session.Calm (n : Nat) (s : Session) : Prop where
  type : FiraType s.sessionType
  config : s.appConfig.Tame
  data : s.data = []
  count : s.sequenceNumber.toNat ≤ n

/-- The emulator after at most `n` steps with careful hosts. -/
structure Pica.Calm (n : Nat) (p : Pica) : Prop where
  stray : ∀ h d, p.devices.get? h = some d → NoStrays d
  sess : ∀ h d sid s, p.devices.get? h = some d → d.sessions.get? sid = some s → s.Calm n
  devs : p.devices.length ≤ 247

/-- What careful hosts let the emulator process. -/
def Pica.Sound (p : Pica) (c : Command) : Prop :=
  (∀ h bytes, c = .uciPacket h bytes → ∃ x, IsCmd bytes x ∧ Mild x ∧
    (Unsettling x → ∀ d, p.devices.get? h = some d → d.state = .deviceStateReady)) ∧
  (c = .connect → p.devices.length < 247)

theorem withControlees_tame {c : AppConfig} {dst : List MacAddress} (hc : c.Tame) (hl : dst.length ≤ 8)
    (hd : ∀ m ∈ dst, ∃ x, m = .short x) : (c.withControlees dst).Tame :=
  ⟨hc.mode, hc.mac, hd, ⟨hl, by
    show (UInt8.ofNat dst.length).toNat ≤ 8
    rw [UInt8.toNat_ofNat']; omega⟩, hc.key⟩

/-- The configurations stay tame. -/
theorem calm_config {n : Nat} {p p' : Pica} {env : Env} {c : Command} {out : List Out} (hc : p.Calm n)
    (hst : p.step env c = .ok (p', out)) (hs : p.Sound c) (h : Nat) (d' : Device) (sid : UInt32) (s' : Session)
    (hd' : p'.devices.get? h = some d') (hs' : d'.sessions.get? sid = some s') : s'.appConfig.Tame := by
  rcases step_kept hst h d' hd' sid s' hs' with ⟨d, s, hd, hss, he⟩ | ⟨bytes, d, o, e, rfl, hd, hrcv, hcmd⟩
  · rw [← he]; exact (hc.sess h d sid s hd hss).config
  · obtain ⟨x, hx, hm, -⟩ := hs.1 h bytes rfl
    rcases receive_isCmd hx hrcv with ⟨rfl, -⟩ | ⟨-, r, hexec, -, -⟩
    · exact (hc.sess h d' sid s' hd hs').config
    · rcases hcmd with ⟨ty, hi⟩ | ⟨l, hi⟩ | ⟨a, q, hi⟩
      · cases isCmd_unique hx hi
        rcases init_origin hexec hs' with he | ⟨s, hss, he⟩
        · rw [he]; exact AppConfig.tame_default
        · rw [← he]; exact (hc.sess h d sid s hd hss).config
      · cases isCmd_unique hx hi
        obtain ⟨s, hss, he | ⟨-, hl, -⟩⟩ := setApp_origin hexec hs'
        · rw [← he]; exact (hc.sess h d sid s hd hss).config
        · refine loop_tame hl (hc.sess h d sid s hd hss).config fun t ht => ⟨(hm t ht).1, (hm t ht).2, ?_⟩
          exact (hx.1.2 t ht).2
      · cases isCmd_unique hx hi
        obtain ⟨s, hss, he | ⟨dst, he, hl, -, hsh, -⟩⟩ := Props.multicast_list hexec hs'
        · rw [he]; exact (hc.sess h d sid s hd hss).config
        · have ht := (hc.sess h d sid s hd hss).config
          rw [he]
          refine withControlees_tame ht (hl ht.small.1) fun m hm => ?_
          rcases hsh m hm with h | h
          · exact ht.dst m h
          · exact h

/-- The rest of the sessions. -/
theorem calm_sess {n : Nat} {p p' : Pica} {env : Env} {c : Command} {out : List Out} (hi : p.PInv) (hc : p.Calm n)
    (hst : p.step env c = .ok (p', out)) (hs : p.Sound c) (h : Nat) (d' : Device) (sid : UInt32) (s' : Session)
    (hd' : p'.devices.get? h = some d') (hs' : d'.sessions.get? sid = some s') : s'.Calm (n + 1) := by
  have hconf := calm_config hc hst hs h d' sid s' hd' hs'
  have hb := book_step h sid hi hst
  have hold : ∀ m b ty, bookOf (p.devices.get? h) sid = some (m, b, ty) → m.toNat ≤ n ∧ b = [] ∧ FiraType ty := by
    intro m b ty hbk
    cases hd : p.devices.get? h with
    | none => rw [hd] at hbk; cases hbk
    | some d =>
      rw [hd] at hbk
      unfold bookOf at hbk
      rw [Option.bind_some, Option.map_eq_some_iff] at hbk
      obtain ⟨s, hss, he⟩ := hbk
      cases he
      have := hc.sess h d sid s hd hss
      exact ⟨this.count, this.data, this.type⟩
  have hnew : bookOf (p'.devices.get? h) sid = some (s'.sequenceNumber, s'.data, s'.sessionType) := by
    unfold bookOf
    rw [hd', Option.bind_some, hs']; rfl
  rw [hnew] at hb
  suffices hx : FiraType s'.sessionType ∧ s'.data = [] ∧ s'.sequenceNumber.toNat ≤ n + 1 from ⟨hx.1, hconf, hx.2.1, hx.2.2⟩
  generalize s'.sequenceNumber = m' at hb ⊢
  generalize s'.data = b' at hb ⊢
  generalize s'.sessionType = ty' at hb ⊢
  generalize ho : bookOf (p.devices.get? h) sid = o at hb
  cases hb with
  | creates _ _ _ _ hcm =>
    obtain ⟨bytes, hcm, hcc⟩ := hcm
    obtain ⟨x, hx, hm, -⟩ := hs.1 h bytes hcm
    cases isCmd_unique hx hcc
    exact ⟨hm, rfl, Nat.zero_le _⟩
  | silent m b _ _ _ _ _ =>
    obtain ⟨h1, -, h3⟩ := hold _ _ _ ho
    exact ⟨h3, rfl, by omega⟩
  | info m b _ _ _ _ _ hlt =>
    obtain ⟨h1, -, h3⟩ := hold _ _ _ ho
    refine ⟨h3, rfl, ?_⟩
    rw [UInt32.toNat_add]
    have : (m.toNat + (1 : UInt32).toNat) % 2 ^ 32 ≤ m.toNat + 1 := Nat.mod_le _ _
    omega
  | queue _ _ c _ _ _ _ _ hq =>
    obtain ⟨bytes, m, hcm, hd, -⟩ := hq
    obtain ⟨x, hx, -⟩ := hs.1 h bytes hcm
    exact (isCmd_not_snd hx hd).elim
  | same _ _ _ _ _ _ =>
    obtain ⟨h1, h2, h3⟩ := hold _ _ _ ho
    exact ⟨h3, h2, by omega⟩

theorem calm_stray {n : Nat} {p p' : Pica} {env : Env} {c : Command} {out : List Out} (hi : p.PInv) (hc : p.Calm n)
    (hst : p.step env c = .ok (p', out)) (hs : p.Sound c) (h : Nat) (d' : Device)
    (hd' : p'.devices.get? h = some d') : NoStrays d' := by
  have hstep := Pica.step_dev hi hst h
  by_cases hu : ∃ bytes, c = .uciPacket h bytes
  · obtain ⟨bytes, rfl⟩ := hu
    cases hd : p.devices.get? h with
    | none =>
      rw [Props.uci_absent hd] at hst
      rw [show p' = p from (congrArg Prod.fst (Except.ok.inj hst)).symm, hd] at hd'
      cases hd'
    | some d =>
      rw [Props.uci_step hd] at hst
      cases hx : d.receivePacket env.tid bytes with
      | error z => rw [hx] at hst; cases hst
      | ok z =>
        obtain ⟨d₁, r, e⟩ := z
        rw [hx] at hst
        have hp' : p' = { p with devices := p.devices.insert h d₁ } := (congrArg Prod.fst (Except.ok.inj hst)).symm
        rw [hp'] at hd'
        change (p.devices.insert h d₁).get? h = _ at hd'
        rw [AMap.get?_insert_self] at hd'
        cases hd'
        have hdi := (hi.dev h d hd).2.2.2
        obtain ⟨x, hcx, hm, hun⟩ := hs.1 h bytes rfl
        rcases receive_isCmd hcx hx with ⟨rfl, -⟩ | ⟨hready, rsp, hexec, -, -⟩
        · exact hc.stray h _ hd
        · refine devMove_noStrays' (Device.exec_move hready hexec) hdi ?_ (hc.stray h d hd)
          intro hlk y hy ha
          have hinact : Unsettling x → False := fun hu => ready_inactive hdi (hun hu d hd) y ha
          cases x with
          | sessionInit sid ty =>
            cases hy
            rcases init_state hexec with h0 | h0
            · rw [h0, ha]; decide
            · exact h0
          | sessionUpdateMulticast sid a q =>
            cases hy
            have ha' : a = .addControlee := by
              by_contra hne; exact hinact (.inl hne)
            subst ha'
            have hq : q ≠ [0] := fun hq => hinact (.inr hq)
            rw [multicast_add_state hexec hq, ha]
            decide
          | _ => exact hlk.elim
  · rw [hd'] at hstep
    generalize ho : p.devices.get? h = o at hstep
    generalize effectsOf h out = e at hstep
    generalize ho' : some d' = o' at hstep
    cases hstep with
    | move d d₁ e hm =>
      cases ho'
      by_cases hv : ∃ y b, c = .uciPacket y b
      · obtain ⟨y, b, rfl⟩ := hv
        have hne : y ≠ h := by rintro rfl; exact hu ⟨b, rfl⟩
        rw [step_other hst hne, ho] at hd'
        cases hd'
        exact hc.stray h _ ho
      · exact devMove_noStrays' hm (hi.dev h d ho).2.2.2 (fun hl => absurd hl hv) (hc.stray h d ho)
    | connect _ _ => cases ho'; intro sid s hs; cases hs
    | disconnect => cases ho'
    | absent => cases ho'

theorem step_length {p p' : Pica} {env : Env} {c : Command} {out : List Out} (hi : p.PInv)
    (hst : p.step env c = .ok (p', out)) : p'.devices.length ≤ p.devices.length + if c = .connect then 1 else 0 := by
  have hn := (Pica.step_inv hi hst).devNodup
  have hlen : ∀ m : AMap Nat Device, m.length = (AMap.keys m).length := fun m => (List.length_map _).symm
  rw [hlen, hlen]
  have hsub : ∀ x ∈ AMap.keys p'.devices, x ∈ AMap.keys p.devices ∨ c = .connect ∧ x = p.counter := by
    intro x hx
    have hstep := Pica.step_dev hi hst x
    cases hd' : p'.devices.get? x with
    | none => exact absurd hx (AMap.get?_eq_none.mp hd')
    | some d' =>
      rw [hd'] at hstep
      cases hd : p.devices.get? x with
      | some d =>
        left
        by_contra hne
        rw [AMap.get?_eq_none.mpr hne] at hd; cases hd
      | none =>
        rw [hd] at hstep
        generalize effectsOf x out = e at hstep
        generalize ho' : some d' = o' at hstep
        generalize ho : (none : Option Device) = o at hstep
        cases hstep with
        | move => cases ho
        | connect h1 h2 => exact .inr ⟨h1, h2⟩
        | disconnect => cases ho'
        | absent => cases ho'
  split
  · rename_i hcc
    refine (List.subperm_of_subset hn (l₂ := p.counter :: AMap.keys p.devices) ?_).length_le
    intro x hx
    rcases hsub x hx with h | ⟨-, rfl⟩
    · exact List.mem_cons_of_mem _ h
    · exact List.mem_cons_self
  · rename_i hcc
    refine (List.subperm_of_subset hn ?_).length_le
    intro x hx
    rcases hsub x hx with h | ⟨h, -⟩
    · exact h
    · exact absurd h hcc

theorem calm_step {n : Nat} {p p' : Pica} {env : Env} {c : Command} {out : List Out} (hi : p.PInv) (hc : p.Calm n)
    (hst : p.step env c = .ok (p', out)) (hs : p.Sound c) : p'.Calm (n + 1) := by
  refine ⟨calm_stray hi hc hst hs, fun h d sid s hd hss => calm_sess hi hc hst hs h d sid s hd hss, ?_⟩
  have h1 := step_length hi hst
  have h2 := hc.devs
  split at h1
  · rename_i he
    have := hs.2 he
    omega
  · omega

theorem calm_reorder {n : Nat} {p q : Pica} (hi : p.PInv) (hc : p.Calm n) (hr : p.Reorder q) : q.Calm n := by
  have hq : ∀ h d', q.devices.get? h = some d' → ∃ d, p.devices.get? h = some d ∧ ∀ sid, d'.sessions.get? sid = d.sessions.get? sid := by
    intro h d' hd'
    rcases (Pica.reorder_dev hi hr).2.2.2 h with he | ⟨d, l, hd, hl, he⟩
    · exact ⟨d', by rw [← he, hd'], fun _ => rfl⟩
    · rw [he] at hd'; cases hd'
      exact ⟨d, hd, fun sid => AMap.get?_perm (hi.dev h d hd).2.2.2.nodup hl sid⟩
  refine ⟨fun h d' hd' sid s hs => ?_, fun h d' sid s hd' hs => ?_, ?_⟩
  · obtain ⟨d, hd, he⟩ := hq h d' hd'
    rw [he] at hs
    exact hc.stray h d hd sid s hs
  · obtain ⟨d, hd, he⟩ := hq h d' hd'
    rw [he] at hs
    exact hc.sess h d sid s hd hs
  · have hn := (Pica.reorder_dev hi hr).2.1
    have hlen : ∀ m : AMap Nat Device, m.length = (AMap.keys m).length := fun m => (List.length_map _).symm
    refine le_trans ?_ hc.devs
    rw [hlen, hlen]
    refine (List.subperm_of_subset hn ?_).length_le
    intro x hx
    by_contra hne
    cases hd' : q.devices.get? x with
    | none => exact AMap.get?_eq_none.mp hd' hx
    | some d' =>
      obtain ⟨d, hd, -⟩ := hq x d' hd'
      rw [AMap.get?_eq_none.mpr hne] at hd; cases hd

/-! ### No panic -/

theorem packet_survives {n : Nat} {p : Pica} (hp : p.Reachable) (hc : p.Calm n) (env : Env) {h : Nat} {bytes : Bytes}
    (hs : p.Sound (.uciPacket h bytes)) (x : Panic) : p.step env (.uciPacket h bytes) ≠ .error x := by
  intro hx
  cases hd : p.devices.get? h with
  | none => rw [Props.uci_absent hd] at hx; cases hx
  | some d =>
    obtain ⟨c, hcmd, hm, hun⟩ := hs.1 h bytes rfl
    obtain ⟨-, hf⟩ := (Props.C16_commands_partial p hp env h d hd bytes c hcmd).mp ⟨x, hx⟩
    cases hf with
    | deviceInfo h1 => exact h1 (hun trivial d hd)
    | setConfig _ h1 => exact h1 (hun trivial d hd)
    | sessionType sid tlvs s hss h1 h2 =>
      rcases (hc.sess h d sid s hd hss).type with h3 | h3
      · exact h1 h3
      · exact h2 h3
    | macMode sid tlvs s hss h1 h2 =>
      obtain ⟨⟨c', inv⟩, hl⟩ := loop_total (l := tlvs) (hc.sess h d sid s hd hss).config
        fun t ht => ⟨(hm t ht).1, (hm t ht).2, (hcmd.1.2 t ht).2⟩
      obtain ⟨bad, ha, -⟩ := loop_ok hl
      exact h2 _ _ ha
    | longValue sid ids s hss h1 h2 =>
      obtain ⟨i, -, v, hv, hlt⟩ := h2
      have := view_fits (hc.sess h d sid s hd hss).config hv
      omega
    | start sid s hss h1 h2 =>
      exact h2 (hc.stray h d hd sid s hss (by rw [h1]; decide))

theorem round_survives {n : Nat} {p : Pica} (hp : p.Reachable) (hc : p.Calm n) (hn : n + 1 < 2 ^ 32) (env : Env) {h : Nat}
    {sid : UInt32} {d : Device} {s : Session} (hd : p.devices.get? h = some d) (hs : d.sessions.get? sid = some s)
    (hal : env.alive h = true)
    (hact : ∀ k q t, p.devices.get? k = some q → q.sessions.get? sid = some t → t.state = sessionStateActive → env.alive k = true) :
    ∃ x, p.step env (.ranging h sid) = .ok x := by
  have hsc := hc.sess h d sid s hd hs
  have hi := Pica.reachable_inv hp
  rw [Props.C57_round_survives p hp env h d sid s hd hs]
  refine ⟨?_, ?_, fun _ => ⟨?_, hal, ?_⟩⟩
  · intro e he
    rcases List.mem_append.mp he with he | he
    · obtain ⟨m, hm, hme⟩ := List.mem_filterMap.mp he
      obtain ⟨a, -, hme⟩ := Option.bind_eq_some_iff.mp hme
      obtain ⟨y, -, rfl⟩ := Option.map_eq_some_iff.mp hme
      exact hsc.config.dst m hm
    · obtain ⟨⟨k, q⟩, hkq, hme⟩ := List.mem_filterMap.mp he
      obtain ⟨t, ht, hme⟩ := Option.bind_eq_some_iff.mp hme
      split at hme
      · obtain ⟨m, hm, hme⟩ := Option.bind_eq_some_iff.mp hme
        obtain ⟨y, -, rfl⟩ := Option.map_eq_some_iff.mp hme
        exact (hc.sess k q sid t (AMap.get?_of_mem hi.devNodup hkq) ht).config.mac m hm
      · cases hme
  · rintro k q hk ⟨-, -, t, ht, hex⟩ -
    refine ⟨hact k q t hk ht hex.1, ?_⟩
    rw [hsc.data]; exact Nat.zero_le _
  · unfold peers
    rw [List.length_append]
    have h1 := List.length_filterMap_le (anchorPeer env.estimate p.anchors h) s.appConfig.dstMacAddress
    have h2 := List.length_filterMap_le (fun e : Nat × Device => devicePeer env.estimate h sid s e.1 e.2) p.devices
    have h3 := hsc.config.small.1
    have h4 := hc.devs
    omega
  · have := hsc.count
    omega

end Pica

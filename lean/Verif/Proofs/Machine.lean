import Verif.Spec.Machine
import Verif.Proofs.Map
import Verif.Proofs.Scope
import Verif.Proofs.SetApp
import Verif.Proofs.Pica
/-! Lemmas on the device as its host sees it (C118). -/

namespace Pica
open Spec Spec.Machine SessionState

theorem AMap.length_erase {K V : Type} [DecidableEq K] {m : AMap K V} (hn : m.keys.Nodup) {k : K} {v : V}
    (h : m.get? k = some v) : (m.erase k).length = m.length - 1 := by
  have hk : ∀ m : AMap K V, m.keys.length = m.length := fun m => by simp [keys]
  have hm : k ∈ m.keys := by
    by_contra hc
    rw [get?_eq_none.mpr hc] at h
    cases h
  rw [← hk, keys_erase, ← hk m]
  have : (m.keys.filter fun x => decide (x ≠ k)) = m.keys.erase k := by
    rw [hn.erase_eq_filter]
    congr 1
    funext x
    by_cases hx : x = k <;> simp [hx]
  rw [this, List.length_erase_of_mem hm]

theorem look_of {d : Device} {sid : UInt32} {s : Session} (h : d.sessions.get? sid = some s) :
    (Ref.of d).look sid = some (Sess.of s) := by
  show (d.sessions.get? sid).map _ = _
  rw [h]; rfl

theorem look_none {d : Device} {sid : UInt32} (h : d.sessions.get? sid = none) : (Ref.of d).look sid = none := by
  show (d.sessions.get? sid).map _ = _
  rw [h]; rfl

theorem of_same {d d' : Device} (hc : d'.config.lowPowerMode = d.config.lowPowerMode) (hs : d'.sessions = d.sessions) :
    Ref.of d' = Ref.of d := by
  unfold Ref.of
  rw [hc, hs]

theorem look_insert (d : Device) (sid : UInt32) (s : Session) :
    (fun x => ((d.sessions.insert sid s).get? x).map Sess.of) = ((Ref.of d).put sid (Sess.of s)).look := by
  funext x
  show _ = if x = sid then some (Sess.of s) else (d.sessions.get? x).map Sess.of
  rw [AMap.get?_insert]
  by_cases hx : x = sid
  · rw [if_pos hx.symm, if_pos hx]; rfl
  · rw [if_neg (Ne.symm hx), if_neg hx]

theorem of_put {d d' : Device} {sid : UInt32} {s s' : Session} (hs : d.sessions.get? sid = some s)
    (hc : d'.config.lowPowerMode = d.config.lowPowerMode) (hd : d'.sessions = d.sessions.insert sid s') :
    Ref.of d' = (Ref.of d).put sid (Sess.of s') := by
  have h1 := look_insert d sid s'
  unfold Ref.of at *
  rw [hc, hd, h1, AMap.length_insert, hs]
  rfl

theorem of_new {d d' : Device} {sid : UInt32} {s' : Session} (hs : d.sessions.get? sid = none)
    (hc : d'.config.lowPowerMode = d.config.lowPowerMode) (hd : d'.sessions = d.sessions.insert sid s') :
    Ref.of d' = { (Ref.of d).put sid (Sess.of s') with count := (Ref.of d).count + 1 } := by
  have h1 := look_insert d sid s'
  unfold Ref.of at *
  rw [hc, hd, h1, AMap.length_insert, hs]
  rfl

theorem of_erase {d d' : Device} (hn : (AMap.keys d.sessions).Nodup) {sid : UInt32} {s : Session}
    (hs : d.sessions.get? sid = some s)
    (hc : d'.config.lowPowerMode = d.config.lowPowerMode) (hd : d'.sessions = d.sessions.erase sid) :
    Ref.of d' = { Ref.of d with look := fun x => if x = sid then none else (Ref.of d).look x, count := (Ref.of d).count - 1 } := by
  unfold Ref.of
  rw [hc, hd, AMap.length_erase hn hs]
  congr 1
  funext x
  rw [AMap.get?_erase]
  by_cases hx : x = sid
  · rw [if_pos hx.symm, if_pos hx]; rfl
  · rw [if_neg (Ne.symm hx), if_neg hx]

theorem put_self {r : Ref} {sid : UInt32} {s : Sess} (h : r.look sid = some s) : r.put sid s = r := by
  unfold Ref.put
  have : (fun x => if x = sid then some s else r.look x) = r.look := by
    funext x
    by_cases hx : x = sid
    · rw [if_pos hx, hx, h]
    · rw [if_neg hx]
  rw [this]

/-- A session changed in nothing its host sees. -/
theorem of_hidden {d d' : Device} {sid : UInt32} {s s' : Session} (hs : d.sessions.get? sid = some s)
    (he : Sess.of s' = Sess.of s)
    (hc : d'.config.lowPowerMode = d.config.lowPowerMode) (hd : d'.sessions = d.sessions.insert sid s') :
    Ref.of d' = Ref.of d := by
  rw [of_put hs hc hd, he, put_self (look_of hs)]

theorem of_perm {d : Device} (hn : (AMap.keys d.sessions).Nodup) {l : AMap UInt32 Session} (hp : l.Perm d.sessions) :
    Ref.of { d with sessions := l } = Ref.of d := by
  unfold Ref.of
  congr 1
  · exact hp.length_eq
  · funext x
    show (AMap.get? l x).map _ = _
    rw [AMap.get?_perm hn hp]

/-! ### The controlees -/

theorem mapM_shorts {ls : List Bytes} {l : List MacAddress}
    (h : ls.mapM (fun m => (Arr.ofBytes? 2 m).map MacAddress.short) = some l) : ∀ m ∈ l, ∃ a, m = .short a := by
  induction ls generalizing l with
  | nil => cases h; intro m hm; exact (List.not_mem_nil hm).elim
  | cons b ls ih =>
    rw [List.mapM_cons] at h
    cases h1 : Arr.ofBytes? 2 b with
    | none => simp [h1] at h
    | some a =>
      cases h2 : ls.mapM (fun m => (Arr.ofBytes? 2 m).map MacAddress.short) with
      | none => simp [h1, h2] at h
      | some l' =>
        simp [h1, h2] at h
        subst h
        intro m hm
        rcases List.mem_cons.mp hm with rfl | hm
        · exact ⟨a, rfl⟩
        · exact ih h2 m hm

theorem mapM_extendeds {ls : List Bytes} {l : List MacAddress}
    (h : ls.mapM (fun m => (Arr.ofBytes? 8 m).map MacAddress.extended) = some l) : ∀ m ∈ l, ∃ a, m = .extended a := by
  induction ls generalizing l with
  | nil => cases h; intro m hm; exact (List.not_mem_nil hm).elim
  | cons b ls ih =>
    rw [List.mapM_cons] at h
    cases h1 : Arr.ofBytes? 8 b with
    | none => simp [h1] at h
    | some a =>
      cases h2 : ls.mapM (fun m => (Arr.ofBytes? 8 m).map MacAddress.extended) with
      | none => simp [h1, h2] at h
      | some l' =>
        simp [h1, h2] at h
        subst h
        intro m hm
        rcases List.mem_cons.mp hm with rfl | hm
        · exact ⟨a, rfl⟩
        · exact ih h2 m hm

theorem parseDst_list {mode : MacAddressMode} {n : UInt8} {v : Bytes} {l : List MacAddress}
    (h : AppConfig.parseDst mode n v = .ok (some l)) : ∀ m ∈ l, if mode.code = 0 then ∃ a, m = .short a else ∃ a, m = .extended a := by
  unfold AppConfig.parseDst at h
  cases mode with
  | mode0 =>
    have h := Except.ok.inj h
    split at h
    · exact mapM_shorts h
    · cases h
  | mode1 => cases h
  | mode2 =>
    have h := Except.ok.inj h
    split at h
    · exact mapM_extendeds h
    · cases h

/-- One parameter. -/
theorem set_dst {c c' : AppConfig} {id : AppConfigTlvType} {v : Bytes} (h : c.set id v = .ok (c', true)) :
    (id.code = 0x07 → IsList ((View.of c).byte 0x26) v c'.dstMacAddress) ∧
    (id.code ≠ 0x07 → c'.dstMacAddress = c.dstMacAddress) := by
  have hv := view_set h
  unfold AppConfig.set at h
  cases ho : Param.ofTag? id with
  | none => rw [ho] at h; cases h
  | some p =>
    rw [ho] at h
    have hid := Param.ofTag?_eq_some.mp ho
    constructor
    · intro h7
      have hp : p = .dstMacAddress := Param.tag_inj (by rw [hid, ← tag_eta id, h7]; rfl)
      subst hp
      refine ⟨?_, ?_⟩
      · have := congrFun hv 0x07
        rw [if_pos h7.symm] at this
        have h2 : View.of c' 0x07 = some (c'.dstMacAddress.flatMap MacAddress.toBytes) := rfl
        rw [h2] at this
        rw [Option.some.inj this, h7]
        rfl
      · rw [view_mode]
        change (do AppConfig.assign c (← AppConfig.parseDst c.macAddressMode c.numberOfControlees v) _) = _ at h
        cases hd : AppConfig.parseDst c.macAddressMode c.numberOfControlees v with
        | error x => rw [hd] at h; cases h
        | ok o =>
          rw [hd] at h
          obtain ⟨x, rfl, rfl⟩ := AppConfig.assign_true h
          exact parseDst_list hd
    · intro h7
      have hp : p ≠ .dstMacAddress := by rintro rfl; exact h7 (by rw [← hid]; rfl)
      change AppConfig.setParam c p v = _ at h
      cases p
      case dstMacAddress => exact absurd rfl hp
      case deviceMacAddress =>
        unfold AppConfig.setParam at h
        cases hm : AppConfig.parseMac c.macAddressMode v with
        | error e => simp [hm, bind, Except.bind] at h
        | ok x =>
          simp only [hm, bind, Except.bind] at h
          obtain ⟨y, -, rfl⟩ := AppConfig.assign_true h
          rfl
      all_goals
        unfold AppConfig.setParam at h
        obtain ⟨y, -, rfl⟩ := AppConfig.assign_true h
        rfl

/-- All the parameters of a command. -/
theorem loop_peers {l : List AppConfigTlv} {c c' : AppConfig} (h : Device.setAppConfigLoop c l = .ok (c', [])) :
    Peers ((View.of c).byte 0x26) c.dstMacAddress (pairs l) c'.dstMacAddress := by
  induction l generalizing c with
  | nil => cases h; exact .nil _ _
  | cons t l ih =>
    unfold Device.setAppConfigLoop at h
    cases hs : c.set t.cfgId t.v with
    | error e => rw [hs] at h; cases h
    | ok x =>
      obtain ⟨c₁, ok⟩ := x
      rw [hs] at h
      simp only [bind, Except.bind] at h
      cases hl : Device.setAppConfigLoop c₁ l with
      | error e => rw [hl] at h; cases h
      | ok y =>
        obtain ⟨c₂, inv⟩ := y
        rw [hl] at h
        cases ok with
        | false => cases h
        | true =>
          have h := Except.ok.inj h
          simp only [if_true] at h
          obtain ⟨rfl, rfl⟩ := Prod.mk.inj h
          have hr := ih hl
          have hv := view_set hs
          obtain ⟨h7, hn⟩ := set_dst hs
          show Peers _ _ ((t.cfgId.code, t.v) :: pairs l) _
          by_cases e7 : t.cfgId.code = 0x07
          · have hm : (View.of c₁).byte 0x26 = (View.of c).byte 0x26 := by
              rw [hv]
              show ((if (0x26 : UInt8) = t.cfgId.code then _ else _ : Option Bytes).bind List.head?).getD 0 = _
              rw [if_neg (by rw [e7]; decide)]
              rfl
            rw [hm] at hr
            rw [e7]
            exact .list (h7 e7) hr
          · rw [hn e7] at hr
            by_cases e26 : t.cfgId.code = 0x26
            · have hb : View.of c₁ 0x26 = some t.v := by
                rw [hv]
                show (if (0x26 : UInt8) = t.cfgId.code then _ else _ : Option Bytes) = _
                rw [if_pos e26.symm, e26]
                rfl
              have hb' : View.of c₁ 0x26 = some [c₁.macAddressMode.code] := rfl
              rw [view_mode] at hr
              rw [e26, Option.some.inj (hb.symm.trans hb')]
              exact .mode hr
            · have hm : (View.of c₁).byte 0x26 = (View.of c).byte 0x26 := by
                rw [hv]
                show ((if (0x26 : UInt8) = t.cfgId.code then _ else _ : Option Bytes).bind List.head?).getD 0 = _
                rw [if_neg (Ne.symm e26)]
                rfl
              rw [hm] at hr
              exact .other e26 e7 hr

theorem isList_unique {mode : UInt8} {v : Bytes} {l l' : List MacAddress} (h : IsList mode v l) (h' : IsList mode v l') : l = l' := by
  obtain ⟨h1, h2⟩ := h
  obtain ⟨h1', h2'⟩ := h'
  rw [h1] at h1'
  clear h1 v
  induction l generalizing l' with
  | nil =>
    cases l' with
    | nil => rfl
    | cons m l' =>
      exfalso
      have := congrArg List.length h1'
      have hm := h2' m (List.mem_cons_self ..)
      split at hm <;> (obtain ⟨a, rfl⟩ := hm; simp [MacAddress.toBytes, a.2] at this; omega)
  | cons m l ih =>
    cases l' with
    | nil =>
      exfalso
      have := congrArg List.length h1'
      have hm := h2 m (List.mem_cons_self ..)
      split at hm <;> (obtain ⟨a, rfl⟩ := hm; simp [MacAddress.toBytes, a.2] at this)
    | cons m' l' =>
      have hm := h2 m (List.mem_cons_self ..)
      have hm' := h2' m' (List.mem_cons_self ..)
      rw [List.flatMap_cons, List.flatMap_cons] at h1'
      have hl : m.toBytes.length = m'.toBytes.length := by
        split at hm <;> (rename_i h0; simp only [h0, if_true, if_false] at hm'; obtain ⟨a, rfl⟩ := hm; obtain ⟨a', rfl⟩ := hm'; exact a.2.trans a'.2.symm)
      obtain ⟨e1, e2⟩ := List.append_inj h1' hl
      rw [ih (fun x hx => h2 x (List.mem_cons_of_mem _ hx)) e2 (fun x hx => h2' x (List.mem_cons_of_mem _ hx))]
      congr 1
      split at hm
      · rename_i h0; simp only [h0, if_true] at hm'; obtain ⟨a, rfl⟩ := hm; obtain ⟨a', rfl⟩ := hm'
        exact congrArg MacAddress.short (Subtype.ext e1)
      · rename_i h0; simp only [h0, if_false] at hm'; obtain ⟨a, rfl⟩ := hm; obtain ⟨a', rfl⟩ := hm'
        exact congrArg MacAddress.extended (Subtype.ext e1)

theorem peers_unique {mode : UInt8} {l l₁ l₂ : List MacAddress} {ps : List (UInt8 × Bytes)} (h : Peers mode l ps l₁)
    (h' : Peers mode l ps l₂) : l₁ = l₂ := by
  induction h with
  | nil => cases h'; rfl
  | mode _ ih =>
    cases h' with
    | mode h' => exact ih h'
    | other h1 => exact absurd rfl h1
  | list hl _ ih =>
    cases h' with
    | list hl' h' => cases isList_unique hl hl'; exact ih h'
    | other _ h1 => exact absurd rfl h1
  | other h1 h2 _ ih =>
    cases h' with
    | mode h' => exact absurd rfl h1
    | list _ _ => exact absurd rfl h2
    | other _ _ h' => exact ih h'

/-! ### What is not a command -/

theorem of_receive {d d' : Device} {tid : Nat} {bytes : Bytes} {o : Option Packet} {e : List Effect}
    (h : d.receivePacket tid bytes = .ok (d', o, e)) :
    (∃ c r, IsCmd bytes c ∧ Ready d c ∧ d.exec tid c = .ok (d', r, e) ∧ o = some (.rsp r)) ∨
    (Ref.of d' = Ref.of d ∧ ∀ r, o ≠ some (.rsp r)) := by
  cases receive_ok h with
  | ignored => exact .inr ⟨rfl, fun _ hn => by cases hn⟩
  | refused _ _ p _ hp => exact .inr ⟨rfl, fun r hn => hp.1 r (Option.some.inj hn)⟩
  | early => exact .inr ⟨rfl, fun _ hn => by cases hn⟩
  | cmd _ c _ rsp _ hc hr hx _ => exact .inl ⟨c, rsp, hc, hr, hx, rfl⟩
  | snd _ m _ n _ hd =>
    refine .inr ⟨?_, fun _ hn => by cases hn⟩
    rcases hd with ⟨-, rfl, -⟩ | ⟨s, s', hs, hx, rfl⟩
    · rfl
    · refine of_hidden hs (s' := s') ?_ rfl rfl
      unfold Session.dataMessageSnd at hx
      split at hx
      · cases hx; rfl
      · split at hx
        · cases hx
        · cases hx; rfl
  | rcv => exact .inr ⟨rfl, fun _ hn => by cases hn⟩

theorem of_stop (d : Device) (mac : MacAddress) (sid : UInt32) :
    Ref.of (d.stopInBand mac sid).1 = Ref.of d ∨ Drifts (Ref.of d) (Ref.of (d.stopInBand mac sid).1) := by
  unfold Device.stopInBand
  cases hs : d.session sid with
  | none => exact .inl rfl
  | some s =>
    dsimp only
    split
    · exact .inl rfl
    · split
      · rename_i ha
        refine .inr ?_
        have h1 : Sess.of (s.stopRangingTask.1.setState .sessionStateIdle .sessionStoppedDueToInbandSignal).1 =
            { Sess.of s with phase := sessionStateIdle } := by
          unfold Session.stopRangingTask
          cases s.rangingTask <;> (unfold Session.setState; dsimp only; rw [ha, if_neg (by decide)]; rfl)
        have h2 : ∀ d' : Device, d'.config.lowPowerMode = d.config.lowPowerMode →
            d'.sessions = d.sessions.insert sid (s.stopRangingTask.1.setState .sessionStateIdle .sessionStoppedDueToInbandSignal).1 →
            Drifts (Ref.of d) (Ref.of d') := fun d' hc hd => by
          rw [of_put hs hc hd, h1]
          exact .stop sid _ (look_of hs) ha
        split
        · exact h2 _ (by rw [Device.setState_eq]; rfl) (by rw [Device.setState_eq]; rfl)
        · exact h2 _ rfl rfl
      · exact .inl rfl

end Pica

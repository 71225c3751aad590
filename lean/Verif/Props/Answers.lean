import Verif.Spec.Answers
import Verif.Props.Registry
import Verif.Props.Reset
import Verif.Props.Connection
import Verif.Props.System
import Verif.Proofs.Careful
/-! C74: the responses of a whole schedule. -/

namespace Pica.Props
open Spec System

/-- The response a packet is, by its bytes. -/
def response (p : Packet) : Option (Nat × Nat) := p.encode.bind responseCode

theorem response_ntf (n : Ntf) : response (.ntf n) = none := by
  unfold response
  cases he : (Packet.ntf n).encode with
  | none => rfl
  | some b =>
    obtain ⟨-, rfl⟩ := (C48_ntf_bytes n b).mp he
    have : (3 * 32 + (ntfCode n).1).toNat / 32 ≠ 2 := by cases n <;> (dsimp only [ntfCode]; decide)
    exact if_neg this

theorem response_data (d : DataMessageRcv) : response (.data d) = none := by
  unfold response
  cases he : (Packet.data d).encode with
  | none => rfl
  | some b =>
    obtain ⟨-, rfl⟩ := (C48_data_bytes d b).mp he
    rfl

theorem code_response (c : Cmd) (q : Bytes) :
    responseCode (controlBytes 2 (cmdCode c) q) = some ((cmdCode c).1.toNat, (cmdCode c).2.toNat) := by
  have h1 : (2 * 32 + (cmdCode c).1).toNat / 32 = 2 ∧ (2 * 32 + (cmdCode c).1).toNat % 16 = (cmdCode c).1.toNat ∧
      (cmdCode c).2.toNat % 64 = (cmdCode c).2.toNat := by cases c <;> (simp only [cmdCode]; decide)
  show (if _ then _ else _) = _
  rw [if_pos h1.1, h1.2.1, h1.2.2]

theorem recv_data {d d' : Device} {tid : Nat} {b : UInt8} {r : Bytes} {o : Option Packet} {e : List Effect}
    (hb : b.toNat / 32 = 0) (h : d.receivePacket tid (b :: r) = .ok (d', o, e)) :
    d'.isReset = d.isReset ∧ (o = none ∨ ∃ n, o = some (.ntf n)) := by
  by_cases hshape : r.length < 3 ∨ (b.toNat % 16 ≠ 1 ∧ b.toNat % 16 ≠ 2)
  · rw [recv_notData hb hshape] at h
    cases h
    exact ⟨rfl, .inl rfl⟩
  · match r, hshape with
    | r₁ :: r₂ :: r₃ :: r, hshape =>
      have hg : b.toNat % 16 = 1 ∨ b.toNat % 16 = 2 := by
        by_contra hg; exact hshape (.inr (by omega))
      rcases hg with hg | hg
      · rw [recv_snd hb hg] at h
        cases hm : Pdl.dataMessageSnd.decFull r with
        | none => rw [hm] at h; cases h
        | some m =>
          rw [hm] at h
          dsimp only at h
          cases hs : d.session m.sessionHandle with
          | none => rw [hs] at h; cases h; exact ⟨rfl, .inr ⟨_, rfl⟩⟩
          | some s =>
            rw [hs] at h
            dsimp only at h
            cases hy : s.dataMessageSnd m with
            | error x => rw [hy] at h; cases h
            | ok y =>
              obtain ⟨s', n⟩ := y
              rw [hy] at h
              cases h
              exact ⟨rfl, .inr ⟨_, rfl⟩⟩
      · rw [recv_rcv hb hg] at h
        cases hm : Pdl.dataMessageRcv.decFull r with
        | none => rw [hm] at h; cases h
        | some m => rw [hm] at h; cases h; exact ⟨rfl, .inr ⟨_, rfl⟩⟩
    | [], hshape => exact absurd (.inl (by simp)) hshape
    | [_], hshape => exact absurd (.inl (by simp)) hshape
    | [_, _], hshape => exact absurd (.inl (by simp)) hshape

theorem resets_iff (b : UInt8) (r : Bytes) : resets (b :: r) = true ↔ b.toNat / 32 = 1 ∧ ResetShape b r := by
  unfold ResetShape
  match r with
  | [] => simp [resets]
  | [_] => simp [resets]
  | [_, _] => simp [resets]
  | b₁ :: r₂ :: r₃ :: q => simp [resets]

theorem isCmd_reset {b : UInt8} {r : Bytes} {c : Cmd} (hc : IsCmd (b :: r) c) :
    resets (b :: r) = true ↔ ∃ rc, c = .coreDeviceReset rc := by
  obtain ⟨-, x₀, x₁, x₂, x₃, hl, h0, h1, h2⟩ := hc
  cases hl
  rw [resets_iff]
  unfold ResetShape
  constructor
  · rintro ⟨-, h3, _, _, _, _, he, h4⟩
    cases he
    rw [h1] at h3
    rw [h2] at h4
    clear h1 h2
    cases c <;> first | exact ⟨_, rfl⟩ | (exfalso; revert h3 h4; simp only [cmdCode]; decide)
  · rintro ⟨rc, rfl⟩
    exact ⟨h0, h1, _, _, _, _, rfl, h2⟩

/-- What a device answers to a packet, and whether it has been reset afterwards. -/
theorem recv_answer {d d' : Device} {tid : Nat} {bytes : Bytes} {o : Option Packet} {e : List Effect}
    (h : d.receivePacket tid bytes = .ok (d', o, e)) :
    o.bind response = dueTo d.isReset bytes ∧ d'.isReset = (d.isReset || resets bytes) := by
  match bytes with
  | [] => cases h
  | b :: r =>
  have notCmd : b.toNat / 32 ≠ 1 → resets (b :: r) = false := fun hb => by
    rw [Bool.eq_false_iff, ne_eq, resets_iff]
    exact fun h => hb h.1
  have quiet : b.toNat / 32 < 4 → b.toNat / 32 ≠ 1 → dueTo d.isReset (b :: r) = none := fun h1 h2 => by
    match r with
    | [] => rfl
    | b₁ :: r => exact if_neg (by omega)
  have raw : ∀ b₁ r', r = b₁ :: r' → (4 ≤ b.toNat / 32 ∨ (b.toNat / 32 = 1 ∧ b.toNat % 16 ∈ reservedGroups)) →
      d' = d ∧ o.bind response = dueTo d.isReset (b :: r) := by
    rintro b₁ r' rfl hx
    rw [(recv_undecodable hx).1] at h
    cases h
    refine ⟨rfl, ?_⟩
    have e1 : dueTo d.isReset (b :: b₁ :: r') = some (b.toNat % 16, b₁.toNat % 64) := if_pos (by
      rcases hx with hx | ⟨h1, h2⟩
      · exact .inl hx
      · exact .inr ⟨h1, .inr (.inl h2)⟩)
    rw [e1]
    obtain ⟨i1, i2, i3⟩ := raw_header b b₁
    show (if _ then _ else _) = _
    rw [if_pos i1, i2, i3]
  have hlt : b.toNat / 32 = 0 ∨ b.toNat / 32 = 1 ∨ (b.toNat / 32 = 2 ∨ b.toNat / 32 = 3) ∨ 4 ≤ b.toNat / 32 := by omega
  rcases hlt with hb | hb | hb | hb
  · obtain ⟨h1, h2⟩ := recv_data hb h
    rw [notCmd (by omega), quiet (by omega) (by omega), Bool.or_false]
    refine ⟨?_, h1⟩
    rcases h2 with rfl | ⟨n, rfl⟩
    · rfl
    · exact response_ntf n
  · by_cases hres : b.toNat % 16 ∈ reservedGroups
    · match r with
      | [] => rw [(recv_undecodable (b₁ := 0) (r := []) (.inr ⟨hb, hres⟩)).2] at h; cases h
      | b₁ :: r' =>
        obtain ⟨rfl, h2⟩ := raw b₁ r' rfl (.inr ⟨hb, hres⟩)
        refine ⟨h2, ?_⟩
        have : resets (b :: b₁ :: r') = false := by
          rw [Bool.eq_false_iff, ne_eq, resets_iff]
          rintro ⟨-, h0, -⟩
          rw [h0] at hres
          exact absurd hres (by decide)
        rw [this, Bool.or_false]
    · by_cases hy : d.isReset = true ∨ resets (b :: r) = true
      · have hdue : ∀ b₁ r', r = b₁ :: r' → dueTo d.isReset (b :: r) = some (b.toNat % 16, b₁.toNat % 64) := by
          rintro b₁ r' rfl
          refine if_pos (.inr ⟨hb, ?_⟩)
          rcases hy with hy | hy
          · exact .inl hy
          · exact .inr (.inr hy)
        have hone : (d.isReset || resets (b :: r)) = true := by
          rw [Bool.or_eq_true]; exact hy
        rw [hone]
        by_cases hother : b.toNat % 16 ∈ otherGroups
        · have hr : d.isReset = true := hy.resolve_right fun hx => by
            rw [((resets_iff b r).mp hx).2.1] at hother
            exact absurd hother (by decide)
          match r with
          | [] => rw [(recv_other hr hb hother).2 (by simp)] at h; cases h
          | [x] => rw [(recv_other hr hb hother).2 (by simp)] at h; cases h
          | b₁ :: b₂ :: q =>
            obtain ⟨g, hg, he⟩ := (recv_other (tid := tid) hr hb hother).1 b₁ b₂ q rfl
            rw [he] at h
            cases h
            obtain ⟨c₀, body, i1, i2, i3⟩ := control_response g b b₁ [b₂, 1, Status.unknownGid.code] hg
            refine ⟨?_, hr⟩
            rw [hdue b₁ _ rfl, Option.bind_some]
            unfold response
            rw [i1]
            show (if _ then _ else _) = _
            rw [if_pos i2, i3]
        · have hsup : b.toNat % 16 ∈ supportedGroups := by
            have : b.toNat % 16 < 16 := by omega
            simp only [reservedGroups, otherGroups, supportedGroups, List.mem_cons, List.not_mem_nil, or_false] at *
            omega
          by_cases hc : ∃ c, IsCmd (b :: r) c
          · obtain ⟨c, hc⟩ := hc
            have hr : Ready d c := hy.imp_right fun hx => (isCmd_reset hc).mp hx
            rw [receive_cmd hr hc] at h
            cases hx : d.exec tid c with
            | error x => rw [hx] at h; cases h
            | ok y =>
              obtain ⟨d₁, r₁, e₁⟩ := y
              rw [hx] at h
              simp only [finish, Device.sending] at h
              split at h
              · rename_i hs
                cases h
                constructor
                · obtain ⟨-, x₀, x₁, x₂, x₃, hl, h0, h1, h2⟩ := hc
                  cases hl
                  rw [hdue x₁ _ rfl, Option.bind_some]
                  unfold response
                  rw [(C48_rsp_bytes r₁ _).mpr ⟨rsp_isSome.mp hs, rfl⟩, Option.bind_some, h1, h2, exec_code hx, code_response]
                · by_cases hrc : ∃ rc, c = .coreDeviceReset rc
                  · obtain ⟨rc, rfl⟩ := hrc
                    cases hx
                    rfl
                  · have h3 := hr.resolve_right hrc
                    rw [← h3]
                    refine move_isReset (Device.exec_move hr hx) ?_
                    cases c with
                    | coreDeviceReset rc => exact absurd ⟨rc, rfl⟩ hrc
                    | _ => first | exact one_not_all | exact fun h => h 0
              · cases h
          · obtain ⟨x, hx⟩ := recv_bad (tid := tid) (hy.imp_right fun hx => ((resets_iff b r).mp hx).2) hb hsup fun c hc' => hc ⟨c, hc'⟩
            rw [hx] at h
            cases h
      · rw [not_or, Bool.not_eq_true, Bool.not_eq_true] at hy
        have hns : ¬ResetShape b r := fun hx => by
          have := (resets_iff b r).mpr ⟨hb, hx⟩
          rw [hy.2] at this; cases this
        rw [recv_notReset hy.1 hb hres hns] at h
        cases h
        rw [hy.2, Bool.or_false]
        refine ⟨?_, rfl⟩
        rw [Option.bind_some, response_ntf]
        match r with
        | [] => rfl
        | b₁ :: r' =>
          refine (if_neg ?_).symm
          rintro (h4 | ⟨-, h5 | h5 | h5⟩)
          · omega
          · rw [hy.1] at h5; cases h5
          · exact hres h5
          · rw [hy.2] at h5; cases h5
  · rw [recv_ignored hb] at h
    cases h
    rw [notCmd (by omega), quiet (by omega) (by omega), Bool.or_false]
    exact ⟨rfl, rfl⟩
  · match r with
    | [] => rw [(recv_undecodable (b₁ := 0) (r := []) (.inl hb)).2] at h; cases h
    | b₁ :: r' =>
      obtain ⟨rfl, h2⟩ := raw b₁ r' rfl (.inl hb)
      rw [notCmd (by omega), Bool.or_false]
      exact ⟨h2, rfl⟩

theorem due_append (f : Bool) (bs : List Bytes) (b : Bytes) :
    due f (bs ++ [b]) = due f bs ++ (dueTo (f || bs.any resets) b).toList := by
  induction bs generalizing f with
  | nil => simp [due]
  | cons x bs ih =>
    rw [List.cons_append]
    unfold due
    rw [ih, List.append_assoc, List.any_cons, Bool.or_assoc]

theorem dataSends_quiet {alive : Nat → Bool} {sid : UInt32} {s : Session} {l : List Device} {o : List Out} (h : Nat)
    (hs : Pica.dataSends alive sid s l = .ok o) : (Spec.sentTo h o).filterMap response = [] := by
  induction l generalizing o with
  | nil => cases hs; rfl
  | cons q l ih =>
    unfold Pica.dataSends at hs
    split at hs
    · cases hs
    · simp only [bind, Except.bind] at hs
      split at hs
      · cases hs
      · rename_i hq
        split at hs
        · cases hs
        · rename_i hr
          cases hs
          rw [(Pica.plain_sendUnwrap hq).1]
          unfold Spec.sentTo
          rw [List.filterMap_append, List.filterMap_append]
          refine List.append_eq_nil_iff.mpr ⟨?_, ih hr⟩
          simp only [List.filterMap_cons, List.filterMap_nil]
          split <;> rename_i he
          · rfl
          · split at he
            · cases he; simp only [response_data, List.filterMap_cons, List.filterMap_nil]
            · cases he

theorem sentTo_effects (h k : Nat) (e : List Effect) : Spec.sentTo h (e.map (Out.effect k)) = [] := by
  unfold Spec.sentTo
  rw [List.filterMap_map, List.filterMap_eq_nil_iff]
  exact fun _ _ => rfl

/-- What is done for others sends no response to a host. -/
theorem step_quiet {p p' : Pica} {env : Env} {c : Command} {out : List Out} (hs : p.step env c = .ok (p', out)) (h : Nat)
    (hc : ∀ bytes, c ≠ .uciPacket h bytes) : (Spec.sentTo h out).filterMap response = [] := by
  cases c with
  | connect =>
    unfold Pica.step at hs
    cases hs
    rfl
  | disconnect y =>
    change Except.ok (p.disconnect y) = _ at hs
    unfold Pica.disconnect at hs
    cases hg : p.devices.get? y with
    | none => rw [hg] at hs; cases hs; rfl
    | some d =>
      rw [hg] at hs
      cases hs
      show (Spec.sentTo h (_ :: List.map _ _)).filterMap response = []
      have := sentTo_effects h y d.dropSessions
      unfold Spec.sentTo at this ⊢
      rw [List.filterMap_cons]
      simp only [this, List.filterMap_nil]
  | ranging y sid =>
    obtain ⟨d, s, ms, ms', ts, o₁, -, -, -, -, ho, hx⟩ := Pica.ranging_ok hs
    have h1 := dataSends_quiet h ho
    rcases hx with ⟨-, -, rfl, -, rfl⟩ | ⟨-, rfl, rfl⟩
    · unfold Spec.sentTo at h1 ⊢
      rw [List.filterMap_append, List.filterMap_append, h1, List.nil_append]
      simp only [List.filterMap_cons, List.filterMap_nil]
      split <;> rename_i he
      · rfl
      · split at he
        · cases he; simp only [response_ntf, List.filterMap_cons, List.filterMap_nil]
        · cases he
    · exact h1
  | stopRanging mac sid =>
    unfold Pica.step Pica.stopControleeRanging at hs
    cases hs
    rw [List.filterMap_eq_nil_iff]
    intro q hq
    obtain ⟨o, ho, he⟩ := List.mem_filterMap.mp hq
    obtain ⟨x, -, hx⟩ := List.mem_flatMap.mp ho
    obtain ⟨e, -, rfl⟩ := List.mem_map.mp hx
    cases he
  | uciPacket y bytes =>
    have hy : y ≠ h := fun e => hc bytes (by rw [e])
    have h2 := (C24_devices_independent p p' env y bytes out hs).2.2.2.2.2
    rw [List.filterMap_eq_nil_iff]
    intro q hq
    obtain ⟨o, ho, he⟩ := List.mem_filterMap.mp hq
    rcases h2 o ho with ⟨r, rfl⟩ | ⟨e, rfl⟩
    · change (if y = h then some r else none) = some q at he
      rw [if_neg hy] at he; cases he
    · cases he
  | createAnchor mac =>
    change p.createAnchor mac = _ at hs
    unfold Pica.createAnchor at hs
    split at hs
    · cases hs; rfl
    · split at hs
      · cases hs
      · cases hs; rfl
  | destroyAnchor mac =>
    change Except.ok (p.destroyAnchor mac) = _ at hs
    unfold Pica.destroyAnchor at hs
    split at hs <;> (cases hs; rfl)

/-- The packets in the queue are of connected devices. -/
structure Present (s : System) : Prop where
  conn : ∀ h c, s.conns.get? h = some c → s.pica.devices.get? h ≠ none ∧ .disconnect h ∉ s.queue
  pkt : ∀ l₁ l₂ h b, s.queue = l₁ ++ .uciPacket h b :: l₂ → s.pica.devices.get? h ≠ none ∧ .disconnect h ∉ l₁
  left : ∀ h, .disconnect h ∈ s.queue → h < s.pica.counter

theorem present_run {ls : List Label} {s : System} (hr : Run .new ls s) : Present s := by
  generalize hn : System.new = n at hr
  induction hr with
  | nil =>
    subst hn
    refine ⟨fun h c e => ?_, fun l₁ l₂ h b e => ?_, fun h e => ?_⟩
    · change (none : Option Conn) = some c at e; cases e
    · cases l₁ <;> cases e
    · cases e
  | @step t u ls l hr _ hst ih =>
    subst hn
    have hi : t.pica.PInv := (System.reachable_inv ⟨ls, hr⟩).pica
    have enq : ∀ {v : System} (c : Command), v.pica = t.pica → v.queue = t.queue ++ [c] → v.conns = t.conns →
        (∀ h, c ≠ .disconnect h) → (∀ h b, c = .uciPacket h b → ∃ x, t.conns.get? h = some x) → Present v := by
      intro v c e1 e2 e3 hnd hpk
      constructor
      · intro h x hx
        rw [e3] at hx
        rw [e1, e2]
        refine ⟨(ih.conn h x hx).1, fun hm => ?_⟩
        rcases List.mem_append.mp hm with hm | hm
        · exact (ih.conn h x hx).2 hm
        · exact hnd h (List.mem_singleton.mp hm).symm
      · intro l₁ l₂ h b e
        rw [e1]
        rw [e2] at e
        rcases List.eq_nil_or_concat l₂ with rfl | ⟨l₃, x, rfl⟩
        · obtain ⟨e4, e5⟩ := List.append_inj' e rfl
          obtain ⟨x, hx⟩ := hpk h b (List.cons.inj e5).1
          rw [← e4]
          exact ih.conn h x hx
        · rw [List.concat_eq_append, ← List.cons_append, ← List.append_assoc] at e
          obtain ⟨e4, -⟩ := List.append_inj' e rfl
          exact ih.pkt l₁ l₃ h b e4
      · intro h hm
        rw [e1]
        rw [e2] at hm
        rcases List.mem_append.mp hm with hm | hm
        · exact ih.left h hm
        · exact absurd (List.mem_singleton.mp hm).symm (hnd h)
    cases hst with
    | request he _ =>
      refine enq _ rfl rfl rfl ?_ ?_
      · rintro h rfl; exact he
      · rintro h b rfl; exact he.elim
    | @packet h bytes hc _ => exact enq _ rfl rfl rfl (by rintro k ⟨⟩) (by rintro k b ⟨⟩; exact ⟨_, hc⟩)
    | @closes h hc =>
      refine ⟨fun k x hk => ?_, ih.pkt, ih.left⟩
      change (t.conns.insert h _).get? k = _ at hk
      rw [AMap.get?_insert] at hk
      split at hk
      · rename_i e; subst e; exact ih.conn h _ hc
      · exact ih.conn k x hk
    | @fails h hc =>
      refine ⟨fun k x hk => ?_, ih.pkt, ih.left⟩
      change (t.conns.erase h).get? k = _ at hk
      rw [AMap.get?_erase] at hk
      split at hk
      · cases hk
      · exact ih.conn k x hk
    | @leaves h hc _ =>
      refine ⟨fun k x hk => ?_, fun l₁ l₂ k b e => ?_, fun k hk => ?_⟩
      · change (t.conns.erase h).get? k = _ at hk
        rw [AMap.get?_erase] at hk
        split at hk
        · cases hk
        · rename_i hkh
          refine ⟨(ih.conn k x hk).1, fun hm => ?_⟩
          rcases List.mem_append.mp hm with hm | hm
          · exact (ih.conn k x hk).2 hm
          · cases List.mem_singleton.mp hm; exact hkh rfl
      · change t.queue ++ [Command.disconnect h] = _ at e
        rcases List.eq_nil_or_concat l₂ with rfl | ⟨l₃, x, rfl⟩
        · obtain ⟨-, e5⟩ := List.append_inj' e rfl
          cases e5
        · rw [List.concat_eq_append, ← List.cons_append, ← List.append_assoc] at e
          obtain ⟨e4, -⟩ := List.append_inj' e rfl
          exact ih.pkt l₁ l₃ k b e4
      · rcases List.mem_append.mp hk with hm | hm
        · exact ih.left k hm
        · cases List.mem_singleton.mp hm
          have := (ih.conn h _ hc).1
          cases hg : t.pica.devices.get? h with
          | none => exact absurd hg this
          | some d => exact (hi.dev h d hg).2.1
    | tick _ _ => exact enq _ rfl rfl rfl (by rintro k ⟨⟩) (by rintro k b ⟨⟩)
    | dies _ _ => exact ⟨ih.conn, ih.pkt, ih.left⟩
    | inBand _ _ => exact enq _ rfl rfl rfl (by rintro k ⟨⟩) (by rintro k b ⟨⟩)
    | notifies _ => exact ⟨ih.conn, ih.pkt, ih.left⟩
    | @process estimate c q p' out hq hstep =>
      obtain ⟨hf1, hf2, -, -⟩ := applyAll_frame out ({ t with pica := p', queue := q, spawned := t.spawned + 1 } : System)
      have hconn := fun h => applyAll_conns out ({ t with pica := p', queue := q, spawned := t.spawned + 1 } : System) h
      generalize (out.foldl apply ({ t with pica := p', queue := q, spawned := t.spawned + 1 } : System)) = v at hf1 hf2 hconn
      dsimp only at hf1 hf2 hconn
      have keep : ∀ h, t.pica.devices.get? h ≠ none → c ≠ .disconnect h → p'.devices.get? h ≠ none := by
        intro h hne hnd
        have hst := Pica.step_dev hi hstep h
        intro h0
        rw [h0] at hst
        generalize t.pica.devices.get? h = o at hst hne
        generalize effectsOf h out = e at hst
        cases hst with
        | disconnect d hd => exact hnd hd
        | absent => exact hne rfl
      constructor
      · intro h x hx
        rw [hf1, hf2]
        rcases hconn h with e | ⟨-, mac, hm⟩
        · rw [e] at hx
          obtain ⟨h1, h2⟩ := ih.conn h x hx
          rw [hq] at h2
          exact ⟨keep h h1 fun e => h2 (e ▸ List.mem_cons_self), fun hm => h2 (List.mem_cons_of_mem _ hm)⟩
        · obtain ⟨rfl, rfl⟩ := step_connected hstep hm
          constructor
          · unfold Pica.step at hstep
            cases hstep
            show AMap.get? (AMap.insert _ _ _) _ ≠ none
            rw [AMap.get?_insert_self]
            simp
          · intro hd
            have := ih.left _ (by rw [hq]; exact List.mem_cons_of_mem _ hd)
            omega
      · intro l₁ l₂ h b e
        rw [hf1]
        rw [hf2] at e
        obtain ⟨h1, h2⟩ := ih.pkt (c :: l₁) l₂ h b (by rw [hq, e]; rfl)
        exact ⟨keep h h1 fun e => h2 (e ▸ List.mem_cons_self), fun hm => h2 (List.mem_cons_of_mem _ hm)⟩
      · intro h hm
        rw [hf1]
        rw [hf2] at hm
        have := ih.left h (by rw [hq]; exact List.mem_cons_of_mem _ hm)
        have := Pica.step_counter hstep
        omega
    | @panics estimate c q x hq _ =>
      refine ⟨fun k y hk => ?_, fun l₁ l₂ k b e => ?_, fun k hk => ?_⟩
      · obtain ⟨h1, h2⟩ := ih.conn k y hk
        rw [hq] at h2
        exact ⟨h1, fun hm => h2 (List.mem_cons_of_mem _ hm)⟩
      · obtain ⟨h1, h2⟩ := ih.pkt (c :: l₁) l₂ k b (by rw [hq]; exact congrArg (c :: ·) e)
        exact ⟨h1, fun hm => h2 (List.mem_cons_of_mem _ hm)⟩
      · exact ih.left k (by rw [hq]; exact List.mem_cons_of_mem _ hk)
    | @shuffle p hro =>
      have hdev : ∀ h, t.pica.devices.get? h ≠ none → p.devices.get? h ≠ none := by
        intro h hne h0
        rcases (Pica.reorder_dev hi hro).2.2.2 h with e | ⟨d, l, h1, -, h2⟩
        · rw [e] at h0; exact hne h0
        · rw [h0] at h2; cases h2
      refine ⟨fun k x hk => ⟨hdev k (ih.conn k x hk).1, (ih.conn k x hk).2⟩,
        fun l₁ l₂ k b e => ⟨hdev k (ih.pkt l₁ l₂ k b e).1, (ih.pkt l₁ l₂ k b e).2⟩, fun k hk => ?_⟩
      show k < p.counter
      rw [reorder_counter hro]
      exact ih.left k hk

/-- What has been answered to a host, and whether its device has been reset. -/
structure Answered (h : Nat) (ls : List Label) (s : System) : Prop where
  sent : (ls.flatMap (sentTo h)).filterMap response = due false (heard h ls)
  flag : ∀ d, s.pica.devices.get? h = some d → d.isReset = (heard h ls).any resets
  fresh : s.pica.counter ≤ h → heard h ls = []

theorem answered_run {ls : List Label} {s : System} (h : Nat) (hr : Run .new ls s) : Answered h ls s := by
  generalize hn : System.new = n at hr
  induction hr with
  | nil => subst hn; exact ⟨rfl, fun d e => (by change (none : Option Device) = some d at e; cases e), fun _ => rfl⟩
  | @step t u ls l hr _ hst ih =>
    subst hn
    have hi : t.pica.PInv := (System.reachable_inv ⟨ls, hr⟩).pica
    have hp := present_run hr
    have idle : ∀ (l : Label), (sentTo h l).filterMap response = [] → heard h [l] = [] →
        ((ls ++ [l]).flatMap (sentTo h)).filterMap response = due false (heard h (ls ++ [l])) ∧ heard h (ls ++ [l]) = heard h ls := by
      intro l h1 h2
      have : heard h (ls ++ [l]) = heard h ls := by
        unfold heard at h2 ⊢
        rw [List.filterMap_append, h2, List.append_nil]
      refine ⟨?_, this⟩
      rw [this, List.flatMap_append, List.filterMap_append, List.flatMap_cons, List.flatMap_nil, List.append_nil, h1,
        List.append_nil]
      exact ih.sent
    have still : ∀ {v : System} (l : Label), v.pica = t.pica → (sentTo h l).filterMap response = [] → heard h [l] = [] →
        Answered h (ls ++ [l]) v := by
      intro v l e h1 h2
      obtain ⟨h3, h4⟩ := idle l h1 h2
      exact ⟨h3, fun d hd => by rw [h4]; rw [e] at hd; exact ih.flag d hd, fun hc => by rw [h4]; rw [e] at hc; exact ih.fresh hc⟩
    cases hst with
    | request _ _ => exact still _ rfl rfl rfl
    | packet _ _ => exact still _ rfl rfl rfl
    | closes _ => exact still _ rfl rfl rfl
    | fails _ => exact still _ rfl rfl rfl
    | leaves _ _ => exact still _ rfl rfl rfl
    | tick _ _ => exact still _ rfl rfl rfl
    | dies _ _ => exact still _ rfl rfl rfl
    | inBand _ _ => exact still _ rfl rfl rfl
    | panics _ _ => exact still _ rfl rfl rfl
    | @notifies k n _ =>
      refine still _ rfl ?_ rfl
      show (if k = h then [Packet.ntf n] else []).filterMap response = []
      split
      · rw [List.filterMap_cons, response_ntf, List.filterMap_nil]
      · rfl
    | @shuffle p hro =>
      obtain ⟨h3, h4⟩ := idle .shuffle rfl rfl
      refine ⟨h3, fun d hd => ?_, fun hc => ?_⟩
      · rw [h4]
        change p.devices.get? h = _ at hd
        rcases (Pica.reorder_dev hi hro).2.2.2 h with e | ⟨d', l, h1, -, h2⟩
        · rw [e] at hd; exact ih.flag d hd
        · rw [h2] at hd; cases hd; exact ih.flag d' h1
      · rw [h4]
        change p.counter ≤ h at hc
        rw [reorder_counter hro] at hc
        exact ih.fresh hc
    | @process estimate c q p' out hq hstep =>
      obtain ⟨hf, -, -, -⟩ := applyAll_frame out ({ t with pica := p', queue := q, spawned := t.spawned + 1 } : System)
      generalize (out.foldl apply ({ t with pica := p', queue := q, spawned := t.spawned + 1 } : System)) = v at hf
      dsimp only at hf
      have hcn := Pica.step_counter hstep
      by_cases hc : ∃ bytes, c = .uciPacket h bytes
      · obtain ⟨bytes, rfl⟩ := hc
        have hd := (hp.pkt [] q h bytes hq).1
        cases hg : t.pica.devices.get? h with
        | none => exact absurd hg hd
        | some d =>
          have hlt := (hi.dev h d hg).2.1
          rw [uci_step hg] at hstep
          cases hrecv : d.receivePacket (t.env estimate).tid bytes with
          | error x => rw [hrecv] at hstep; cases hstep
          | ok r =>
            obtain ⟨d', o, e⟩ := r
            rw [hrecv] at hstep
            cases hstep
            obtain ⟨h1, h2⟩ := recv_answer hrecv
            have hh : ∀ ev : Pica.Event, ev.command = .uciPacket h bytes →
                heard h (ls ++ [.process ev]) = heard h ls ++ [bytes] := by
              intro ev hev
              unfold heard
              rw [List.filterMap_append]
              simp only [List.filterMap_cons, List.filterMap_nil, hev, if_true]
            have hflag := ih.flag d hg
            constructor
            · rw [hh _ rfl, due_append, List.flatMap_append, List.filterMap_append, ih.sent]
              congr 1
              rw [Bool.false_or, ← hflag, ← h1, List.flatMap_cons, List.flatMap_nil, List.append_nil]
              show (Spec.sentTo h ((o.map (Out.send h)).toList ++ e.map (Out.effect h))).filterMap response = _
              have h3 := sentTo_effects h h e
              unfold Spec.sentTo at h3 ⊢
              rw [List.filterMap_append, h3, List.append_nil]
              cases o with
              | none => rfl
              | some r =>
                simp only [Option.map_some, Option.toList_some, List.filterMap_cons, List.filterMap_nil, if_true,
                  Option.bind_some]
                cases response r <;> rfl
            · intro d'' hd''
              rw [hf] at hd''
              change AMap.get? (AMap.insert _ _ _) h = _ at hd''
              rw [AMap.get?_insert_self] at hd''
              cases hd''
              rw [hh _ rfl, List.any_append, ← hflag, h2]
              simp
            · intro hc
              rw [hf] at hc
              change t.pica.counter ≤ h at hc
              omega
      · have hnc : ∀ bytes, c ≠ .uciPacket h bytes := fun b e => hc ⟨b, e⟩
        obtain ⟨h3, h4⟩ := idle (.process ⟨t.env estimate, c, out⟩) (step_quiet hstep h hnc) (by
          unfold heard
          simp only [List.filterMap_cons, List.filterMap_nil]
          split
          · rfl
          · rename_i b hb
            split at hb
            · split at hb
              · rename_i k bytes hk
                subst hk
                exact absurd rfl (hnc bytes)
              · cases hb
            · cases hb)
        refine ⟨h3, fun d' hd' => ?_, fun hc => ?_⟩
        · rw [h4]
          rw [hf] at hd'
          cases hg : t.pica.devices.get? h with
          | some d =>
            rcases step_isReset hi hstep h d d' hg hd' with e | ⟨bytes, rc, e, -⟩
            · rw [e]; exact ih.flag d hg
            · exact absurd e (hnc bytes)
          | none =>
            have hst := Pica.step_dev hi hstep h
            rw [hg, hd'] at hst
            generalize effectsOf h out = e at hst
            cases hst with
            | connect hc hx => rw [ih.fresh (by omega)]; rfl
        · rw [h4]
          rw [hf] at hc
          exact ih.fresh (by omega)

/-- The packet of a host in a command. -/
def packetOf (h : Nat) : Command → Option Bytes
  | .uciPacket h' bytes => if h' = h then some bytes else none
  | _ => none

theorem heard_prefix {ls : List Label} {s : System} (h : Nat) (hr : Run .new ls s) :
    received h ls = (ls.filterMap enqueued).filterMap (packetOf h) ∧
    heard h ls <+: (ls.filterMap dequeued).filterMap (packetOf h) ∧
    (s.stopped = false → heard h ls = (ls.filterMap dequeued).filterMap (packetOf h)) := by
  generalize hn : System.new = n at hr
  induction hr with
  | nil => subst hn; exact ⟨rfl, List.nil_prefix, fun _ => rfl⟩
  | @step t u ls l hr hs hst ih =>
    subst hn
    obtain ⟨h1, -, h3⟩ := ih
    have h3 := h3 hs
    have hrec : received h (ls ++ [l]) = received h ls ++ received h [l] := by unfold received; rw [List.filterMap_append]
    have hhe : heard h (ls ++ [l]) = heard h ls ++ heard h [l] := by unfold heard; rw [List.filterMap_append]
    rw [hrec, hhe, List.filterMap_append, List.filterMap_append, List.filterMap_append, List.filterMap_append, h1, h3]
    cases hst with
    | @request c he _ =>
      refine ⟨?_, ?_, fun _ => ?_⟩
      · cases c with
        | uciPacket k b => exact he.elim
        | _ => rfl
      · exact List.prefix_rfl
      · rfl
    | @packet k bytes _ _ =>
      refine ⟨?_, List.prefix_rfl, fun _ => rfl⟩
      simp only [received, enqueued, packetOf, List.filterMap_cons, List.filterMap_nil]
    | @process estimate c q p' out hq _ =>
      have : heard h [Label.process ⟨t.env estimate, c, out⟩] = ([Label.process ⟨t.env estimate, c, out⟩].filterMap dequeued).filterMap (packetOf h) := by
        simp only [heard, dequeued, packetOf, List.filterMap_cons, List.filterMap_nil]
        cases c <;> rfl
      rw [this]
      exact ⟨rfl, List.prefix_rfl, fun _ => rfl⟩
    | panics _ _ =>
      refine ⟨rfl, ?_, fun e => by cases e⟩
      show _ ++ [] <+: _
      rw [List.append_nil]
      exact List.prefix_append _ _
    | _ => exact ⟨rfl, List.prefix_rfl, fun _ => rfl⟩

/-- C74: in every schedule, the responses sent to a host are, in order and without exception, those due to the packets of
this host that have been processed, and these packets are the first ones received from it. -/
theorem C74_answers (ls : List Label) (s : System) (hr : Run .new ls s) (h : Nat) :
    (ls.flatMap (sentTo h)).filterMap response = due false (heard h ls) ∧ heard h ls <+: received h ls := by
  refine ⟨(answered_run h hr).sent, ?_⟩
  obtain ⟨h1, h2, -⟩ := heard_prefix h hr
  rw [h1, C45_fifo s ls hr, List.filterMap_append]
  exact h2.trans (List.prefix_append _ _)

/-- C74: nothing is left behind: as long as the event loop runs, a packet of a host waits in the queue or has been processed. -/
theorem C74_complete (ls : List Label) (s : System) (hr : Run .new ls s) (hs : s.stopped = false) (h : Nat) (hq : s.queue = []) :
    heard h ls = received h ls := by
  obtain ⟨h1, -, h3⟩ := heard_prefix h hr
  rw [h1, h3 hs, C45_fifo s ls hr, hq, List.append_nil]

theorem code_same {m n : Msg} (h : m.Same n) : responseCode m.bytes = responseCode n.bytes := by
  obtain ⟨h1, h2, h3, -⟩ := h
  unfold responseCode Msg.bytes
  unfold Msg.mt at h1
  unfold Msg.low at h2
  simp only [h1, h2, h3]

/-- C74: the responses the Python host reads are the first ones due to the packets it has sent. -/
theorem C74_host (ls : List Label) (s : System) (hr : Run .new ls s) (h : Nat) (ps : List Packet)
    (hps : ps <+: ls.flatMap (sentTo h)) :
    ∃ fss : List (List Bytes),
      List.Forall₂ (fun p fs => ∃ b, p.encode = some b ∧ segment b = .ok fs) ps fss ∧
      ∀ fuel, ps.length ≤ fuel →
        (Host.readPackets fuel fss.flatten.flatten).filterMap responseCode <+: due false (received h ls) := by
  obtain ⟨fss, h1, h2⟩ := delivery ls s hr h ps hps
  refine ⟨fss, h1, fun fuel hf => ?_⟩
  have h3 : (Host.readPackets fuel fss.flatten.flatten).filterMap responseCode = ps.filterMap response := by
    replace h2 := h2 fuel hf
    clear h1 hps hf
    generalize Host.readPackets fuel fss.flatten.flatten = bs at h2
    induction h2 with
    | nil => rfl
    | @cons b p _ _ hx _ ih =>
      obtain ⟨-, -, m, m', e1, e2, e3, -⟩ := hx
      have : responseCode b = response p := by
        unfold response
        rw [e1, e2]
        exact code_same e3
      rw [List.filterMap_cons, List.filterMap_cons, this, ih]
  rw [h3]
  obtain ⟨h4, h5⟩ := C74_answers ls s hr h
  have h6 : ps.filterMap response <+: due false (heard h ls) := by
    rw [← h4]
    exact hps.filterMap _
  refine h6.trans ?_
  obtain ⟨l, hl⟩ := h5
  rw [← hl]
  have : ∀ (f : Bool) (a b : List Bytes), due f a <+: due f (a ++ b) := by
    intro f a b
    induction a generalizing f with
    | nil => exact List.nil_prefix
    | cons x a ih =>
      rw [List.cons_append]
      unfold due
      exact (List.prefix_append_right_inj _).mpr (ih _)
  exact this _ _ _

/-- A host sends a command before the reset, the reset, an unknown packet, a notification and a command; two responses are due
besides that to the unknown packet, and the last packet waits. -/
example : ∃ ls s, Run .new ls s ∧
    (decide (heard 0 ls = [(Ex.cmd 0 2 []), Ex.reset, [0x81, 0x02, 0, 0], [0x61, 0x02, 0, 0], Ex.sessionInit 7 1]) &&
      decide (due false (heard 0 ls) = [(0, 0), (1, 2), (1, 0)]) &&
      decide (received 0 ls = heard 0 ls ++ [(Ex.cmd 0 2 [])])) = true :=
  Ex.exists_sched (as := [.request .connect, .process] ++ Ex.send 0 (Ex.cmd 0 2 []) ++ Ex.send 0 Ex.reset ++
    Ex.send 0 [0x81, 0x02, 0, 0] ++ Ex.send 0 [0x61, 0x02, 0, 0] ++ Ex.send 0 (Ex.sessionInit 7 1) ++ [.packet 0 (Ex.cmd 0 2 [])])
    (by decide +kernel)

end Pica.Props

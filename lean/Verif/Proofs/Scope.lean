import Verif.Spec.Scope
import Verif.Proofs.Receive
/-! What a move leaves alone. -/

set_option linter.dupNamespace false

namespace Pica
open Spec SessionState

theorem drop_concerns {d : Device} {sid : UInt32} {s : Session} (hs : d.session sid = some s) (hid : s.id = sid) :
    ∀ x ∈ s.drop, Concerns d sid x := by
  intro x hx
  rw [Session.drop_eq] at hx
  rcases List.mem_append.mp hx with hx | hx
  · obtain ⟨t, ht, rfl⟩ := List.mem_map.mp hx
    exact ⟨s, hs, by simpa using ht⟩
  · split at hx
    · cases hx
    · rw [List.mem_singleton.mp hx]; exact hid

theorem benign_concerns {d : Device} {sid : UInt32} {es : List Effect} (h : Benign sid es) :
    ∀ x ∈ es, Concerns d sid x := by
  intro x hx
  rcases h x hx with ⟨mac, n, rfl⟩ | ⟨l, rfl⟩ <;> rfl

theorem sessMove_concerns {d : Device} {tid : Nat} {sid : UInt32} {k : Kind} {o : Option Session} {es : List Effect}
    (h : SessMove tid sid d.handle k (d.session sid) es o) (hi : ∀ s, d.session sid = some s → s.id = sid) :
    ∀ x ∈ es, Concerns d sid x := by
  generalize ho : d.session sid = o₀ at h
  have hid : ∀ s, o₀ = some s → s.id = sid := fun s hs => hi s (ho.trans hs)
  cases h with
  | keep => intro x hx; cases hx
  | create => intro x hx; rw [List.mem_singleton.mp hx]; rfl
  | replace s => exact drop_concerns ho (hid s rfl)
  | replaceActive s => exact drop_concerns ho (hid s rfl)
  | remove s => exact drop_concerns ho (hid s rfl)
  | removeActive s => exact drop_concerns ho (hid s rfl)
  | configure s => intro x hx; rw [List.mem_singleton.mp hx]; exact hid s rfl
  | reconfigure => intro x hx; cases hx
  | multicast s _ _ _ hb => exact benign_concerns hb
  | emptiedIdle s _ _ hb => exact benign_concerns hb
  | emptiedActive s _ _ hb =>
    intro x hx
    rcases List.mem_append.mp hx with hx | hx
    · exact benign_concerns hb x hx
    · rw [List.mem_singleton.mp hx]; exact hid s rfl
  | start s =>
    intro x hx
    rcases List.mem_cons.mp hx with rfl | hx
    · rfl
    · rw [List.mem_singleton.mp hx]; exact hid s rfl
  | stop s =>
    intro x hx
    rcases List.mem_append.mp hx with hx | hx
    · obtain ⟨t, ht, rfl⟩ := List.mem_map.mp hx
      exact ⟨s, ho, by simpa using ht⟩
    · rw [List.mem_singleton.mp hx]; exact hid s rfl
  | data => intro x hx; cases hx
  | round => intro x hx; cases hx

theorem stateNtf_concerns {d : Device} {sid : UInt32} {a b : DeviceState} : ∀ x ∈ stateNtf a b, Concerns d sid x := by
  intro x hx
  unfold stateNtf at hx
  split at hx
  · cases hx
  · rw [List.mem_singleton.mp hx]; trivial

theorem countMove_concerns {d : Device} {sid : UInt32} {ed : List Effect} {n : Nat} {st : DeviceState} {k : Kind}
    (h : CountMove d ed n st k) : ∀ x ∈ ed, Concerns d sid x := by
  cases k <;> simp only [CountMove] at h
  · obtain ⟨-, -, rfl⟩ := h; intro x hx; cases hx
  · obtain ⟨-, -, rfl⟩ := h; exact stateNtf_concerns
  · obtain ⟨-, h⟩ := h
    split at h
    · obtain ⟨-, rfl⟩ := h; exact stateNtf_concerns
    · obtain ⟨-, rfl⟩ := h; intro x hx; cases hx
  · obtain ⟨-, -, rfl⟩ := h; intro x hx; cases hx

/-- A move with a limited scope changes nothing outside it. -/
theorem devMove_scope {tid : Nat} {sc : Scope} {d d' : Device} {e : List Effect} (h : DevMove tid sc d e d') (hi : DevInv d)
    (hne : ∃ x, ¬sc.sess x) :
    (∀ x, ¬sc.sess x → d'.session x = d.session x) ∧ ∀ y ∈ e, ∃ sid, sc.sess sid ∧ Concerns d sid y := by
  cases h with
  | reset hx => obtain ⟨x, hn⟩ := hne; exact absurd (hx x) hn
  | session sid k es ed _ o n st hs hc he hl hsc hlk =>
    refine ⟨fun x hx => ?_, fun y hy => ⟨sid, hsc, ?_⟩⟩
    · show AMap.get? (d.sessions.put sid o) x = _
      rw [AMap.get?_put, if_neg (fun he : sid = x => hx (he ▸ hsc))]; rfl
    · have h1 := sessMove_concerns hs (fun s hs => (hi.sess _ s hs).id)
      have h2 := countMove_concerns (sid := sid) hc
      rcases he with rfl | rfl <;> rcases List.mem_append.mp hy with hy | hy <;>
        first | exact h1 y hy | exact h2 y hy
  | config c cc hc => exact ⟨fun x _ => rfl, by intro y hy; cases hy⟩
  | reorder l hp => exact ⟨fun x _ => AMap.get?_perm hi.nodup hp x, by intro y hy; cases hy⟩

theorem not_all {sid : UInt32} : ∃ x, ¬(x = sid) := ⟨sid + 1, by
  intro h
  have := congrArg UInt32.toNat h
  rw [UInt32.toNat_add] at this
  have h1 := sid.toNat_lt
  have h2 : (1 : UInt32).toNat = 1 := rfl
  rw [h2] at this
  omega⟩

theorem scope_cmd {c : Cmd} (hc : ∀ rc, c ≠ .coreDeviceReset rc) :
    (∃ x, ¬c.scope.sess x) ∧ ∀ x, c.scope.sess x → sessionOf c = some x := by
  cases c with
  | coreDeviceReset rc => exact absurd rfl (hc rc)
  | sessionInit sid => exact ⟨not_all, by rintro x rfl; rfl⟩
  | sessionUpdateMulticast sid => exact ⟨not_all, by rintro x rfl; rfl⟩
  | sessionDeinit sid => exact ⟨not_all, by rintro x rfl; rfl⟩
  | sessionSetAppConfig sid => exact ⟨not_all, by rintro x rfl; rfl⟩
  | sessionStart sid => exact ⟨not_all, by rintro x rfl; rfl⟩
  | sessionStop sid => exact ⟨not_all, by rintro x rfl; rfl⟩
  | _ => exact ⟨⟨0, id⟩, fun x h => False.elim h⟩

theorem isCmd_unique {bytes : Bytes} {c c' : Cmd} (hc : IsCmd bytes c) (hc' : IsCmd bytes c') : c = c' := by
  obtain ⟨q, hq, -, hp1⟩ := isCmd_iff.mp hc
  obtain ⟨q', hq', -, hp2⟩ := isCmd_iff.mp hc'
  cases hq.symm.trans hq'
  cases hp1.symm.trans hp2
  rfl

theorem isDataSnd_unique {bytes : Bytes} {m m' : DataMessageSnd} (h : IsDataSnd bytes m) (h' : IsDataSnd bytes m') : m = m' := by
  obtain ⟨l, b, r₁, r₂, r₃, rfl, h0, h1⟩ := id h
  have e1 := (isSnd_iff h0 h1).mp h
  have e2 := (isSnd_iff h0 h1).mp h'
  exact Option.some.inj (e1.symm.trans e2)

/-- A packet that is a command is executed or refused. -/
theorem receive_isCmd {d d' : Device} {tid : Nat} {bytes : Bytes} {c : Cmd} {o : Option Packet} {e : List Effect}
    (hc : IsCmd bytes c) (h : d.receivePacket tid bytes = .ok (d', o, e)) :
    (d' = d ∧ e = []) ∨ (Ready d c ∧ ∃ r, d.exec tid c = .ok (d', r, e) ∧ o = some (.rsp r) ∧ rspFits r) := by
  cases receive_ok h with
  | ignored => exact .inl ⟨rfl, rfl⟩
  | refused => exact .inl ⟨rfl, rfl⟩
  | early => exact .inl ⟨rfl, rfl⟩
  | cmd _ c' _ rsp _ hc' hr hx hf =>
    cases isCmd_unique hc hc'
    exact .inr ⟨hr, rsp, hx, rfl, hf⟩
  | snd _ m _ _ hm =>
    exfalso
    obtain ⟨-, _, _, _, _, h1, h2, -⟩ := hc
    obtain ⟨-, _, _, _, _, h3, h4, -⟩ := hm
    rw [h1] at h3; rw [(List.cons.inj h3).1] at h2; omega
  | rcv _ m hm => exact .inl ⟨rfl, rfl⟩

/-- A packet that is no command changes at most the data of a session. -/
theorem receive_notCmd {d d' : Device} {tid : Nat} {bytes : Bytes} {o : Option Packet} {e : List Effect}
    (hc : ∀ c, ¬IsCmd bytes c) (h : d.receivePacket tid bytes = .ok (d', o, e)) :
    DevMove tid ⟨fun x => ∃ m, IsDataSnd bytes m ∧ x = m.sessionHandle, False⟩ d e d' := by
  cases receive_ok h with
  | ignored => exact .refl _ _
  | refused => exact .refl _ _
  | early => exact .refl _ _
  | cmd _ c' _ rsp _ hc' => exact absurd hc' (hc c')
  | snd _ m _ n hm hd =>
    rcases hd with ⟨-, rfl, -⟩ | ⟨s, s', hs, hx, rfl⟩
    · exact .refl _ _
    · unfold Session.dataMessageSnd at hx
      have hnone : d.session m.sessionHandle = none → ∀ o : Option Session, o ≠ none → d.sessions.length < maxSession ∧ d.isReset = true :=
        fun hn => by rw [hs] at hn; cases hn
      split at hx
      · cases hx
        have := DevMove.quiet (tid := tid) (sc := ⟨fun x => ∃ m, IsDataSnd bytes m ∧ x = m.sessionHandle, False⟩) (d := d)
          (sid := m.sessionHandle) (es := []) (o := some s) (by rw [hs]; exact .keep _) (fun hn => hnone hn _) ⟨m, hm, rfl⟩
        exact this
      · split at hx
        · cases hx
        · cases hx
          exact DevMove.quiet (sc := ⟨fun x => ∃ m, IsDataSnd bytes m ∧ x = m.sessionHandle, False⟩) (o := some _)
            (by rw [hs]; exact .data s _) (fun hn => hnone hn _) ⟨m, hm, rfl⟩
  | rcv _ m hm => exact .refl _ _

/-- The count of active sessions stays exact when no session leaks. -/
theorem devMove_exact {tid : Nat} {sc : Scope} {d d' : Device} {e : List Effect} (h : DevMove tid sc d e d') (hi : DevInv d)
    (hno : sc.leak → ∀ x, sc.sess x → stateOf d x = sessionStateActive → stateOf d' x = sessionStateActive)
    (hx : d.nActive = activeCount d) : d'.nActive = activeCount d' := by
  cases h with
  | reset => rw [reset_eq]; rfl
  | session sid k es ed _ o n st hs hc he hl hsc hlk =>
    have hcnt := sessMove_count hs
    have hw := AMap.count_put (p := isActive) hi.nodup sid o
    rw [activeCount_eq] at hx ⊢
    rw [stOf_weight, stOf_weight] at hw
    change _ + (if stOf (d.session sid) = _ then 1 else 0) = _ at hw
    show n = AMap.count isActive (d.sessions.put sid o)
    cases k <;> simp only [CountMove] at hc hcnt
    · obtain ⟨rfl, -⟩ := hc
      split at hw <;> split at hw <;> first | omega | (exfalso; simp_all)
    · obtain ⟨rfl, -⟩ := hc
      rw [hcnt.1, hcnt.2] at hw
      simp at hw
      omega
    · obtain ⟨rfl, -⟩ := hc
      rw [hcnt.1] at hw
      simp [hcnt.2] at hw
      omega
    · exfalso
      have := hno (hlk rfl) sid hsc hcnt.1
      rw [stateOf_put, if_pos rfl] at this
      exact hcnt.2 this
  | config c cc hc => exact hx
  | reorder l hp =>
    rw [activeCount_eq] at hx ⊢
    exact hx.trans (AMap.count_perm (p := isActive) hp).symm

/-- Only ACTIVE sessions have a ranging task. -/
def NoStrays (d : Device) : Prop :=
  ∀ sid s, d.sessions.get? sid = some s → s.state ≠ sessionStateActive → s.rangingTask = none

theorem devMove_noStrays {tid : Nat} {sc : Scope} {d d' : Device} {e : List Effect} (h : DevMove tid sc d e d') (hi : DevInv d)
    (hno : sc.leak → ∀ x, sc.sess x → stateOf d x = sessionStateActive → stateOf d' x = sessionStateActive)
    (hx : NoStrays d) : NoStrays d' := by
  cases h with
  | reset => rw [reset_eq]; intro sid s hs; cases hs
  | session sid k es ed _ o n st hs hc he hl hsc hlk =>
    intro x s' hs' hst
    change AMap.get? (AMap.put d.sessions sid o) x = some s' at hs'
    rw [AMap.get?_put] at hs'
    split at hs'
    · rename_i hxs
      subst hxs
      have hd := hx sid
      have hinv := hi.sess sid
      have hleak : k ≠ .leak := by
        rintro rfl
        have hcnt := sessMove_count hs
        have := hno (hlk rfl) sid hsc hcnt.1
        rw [stateOf_put, if_pos rfl] at this
        exact hcnt.2 this
      change ∀ s, d.session sid = some s → _ at hd
      generalize d.session sid = o₀ at hs hd hinv
      cases hs with
      | keep => exact hd s' hs' hst
      | create => cases hs'; rfl
      | replace => cases hs'; rfl
      | replaceActive => exact absurd rfl hleak
      | remove => cases hs'
      | removeActive => cases hs'
      | configure s c hf hi' => cases hs'; exact (hinv s rfl).noTask (.inl hi')
      | reconfigure s c hf ha => cases hs'; exact absurd ha hst
      | multicast s => cases hs'; exact hd s rfl hst
      | emptiedIdle s => cases hs'; exact hd s rfl hst
      | emptiedActive => exact absurd rfl hleak
      | start => cases hs'; exact absurd rfl hst
      | stop => cases hs'; rfl
      | data s => cases hs'; exact hd s rfl hst
      | round s => cases hs'; exact hd s rfl hst
    · exact hx x s' hs' hst
  | config c cc hc => exact hx
  | reorder l hp =>
    intro x s hs
    change AMap.get? l x = some s at hs
    rw [AMap.get?_perm hi.nodup hp] at hs
    exact hx x s hs

end Pica

import Verif.Spec.Commute
import Verif.Spec.Life
import Verif.Proofs.Pica
import Verif.Proofs.DeviceInv
import Verif.Proofs.Examples
/-! C120: the packets of different hosts do not depend on each other. -/

namespace Pica.Props
open Spec

theorem insert_swap {K V : Type} [DecidableEq K] {m : AMap K V} {a b : K} {x y : V} (hn : a ≠ b) (ha : m.get? a ≠ none)
    (hb : m.get? b ≠ none) : (m.insert a x).insert b y = (m.insert b y).insert a x := by
  induction m with
  | nil => exact absurd rfl ha
  | cons e m ih =>
    rw [AMap.get?_cons] at ha hb
    by_cases h1 : e.1 = a
    · have h2 : ¬e.1 = b := fun h => hn (h1.symm.trans h)
      simp only [AMap.insert, h1, if_true, hn, if_false]
    · by_cases h2 : e.1 = b
      · simp only [AMap.insert, h2, if_true, hn.symm, if_false]
      · rw [if_neg h1] at ha
        rw [if_neg h2] at hb
        simp only [AMap.insert, h1, h2, if_false, ih ha hb]

/-- C120: the packets of two hosts can be processed in either order: both are answered in the same way and the state is the same. -/
theorem C120_swap {p q r : Pica} {env env' : Env} {a b : Nat} {x y : Bytes} {o o' : List Out} (hn : a ≠ b)
    (h₁ : p.step env (.uciPacket a x) = .ok (q, o)) (h₂ : q.step env' (.uciPacket b y) = .ok (r, o')) :
    ∃ s, p.step env' (.uciPacket b y) = .ok (s, o') ∧ s.step env (.uciPacket a x) = .ok (r, o) := by
  change p.uciPacket env a x = _ at h₁
  change q.uciPacket env' b y = _ at h₂
  change ∃ s, p.uciPacket env' b y = .ok (s, o') ∧ Pica.uciPacket s env a x = .ok (r, o)
  unfold Pica.uciPacket at h₁ h₂ ⊢
  cases hd : p.devices.get? a with
  | none =>
    rw [hd] at h₁
    cases h₁
    refine ⟨r, h₂, ?_⟩
    cases hb : p.devices.get? b with
    | none => rw [hb] at h₂; cases h₂; rw [hd]
    | some e =>
      rw [hb] at h₂
      dsimp only at h₂
      cases hx : e.receivePacket env'.tid y with
      | error z => rw [hx] at h₂; cases h₂
      | ok z =>
        rw [hx] at h₂
        cases h₂
        dsimp only
        rw [AMap.get?_insert_of_ne hn, hd]
  | some d =>
    rw [hd] at h₁
    dsimp only at h₁
    cases hx : d.receivePacket env.tid x with
    | error z => rw [hx] at h₁; cases h₁
    | ok z =>
      rw [hx] at h₁
      cases h₁
      dsimp only at h₂
      rw [AMap.get?_insert_of_ne hn.symm] at h₂
      cases hb : p.devices.get? b with
      | none =>
        rw [hb] at h₂
        cases h₂
        refine ⟨p, rfl, ?_⟩
        rw [hd]
        dsimp only
        rw [hx]
        rfl
      | some e =>
        rw [hb] at h₂
        dsimp only at h₂ ⊢
        cases hy : e.receivePacket env'.tid y with
        | error z => rw [hy] at h₂; cases h₂
        | ok w =>
          rw [hy] at h₂
          cases h₂
          refine ⟨_, rfl, ?_⟩
          dsimp only
          rw [AMap.get?_insert_of_ne hn, hd]
          dsimp only
          rw [hx, insert_swap hn (by rw [hd]; simp) (by rw [hb]; simp)]
          rfl

theorem isFrom_iff {h : Nat} {ev : Pica.Event} : isFrom h ev = true ↔ ∃ b, ev.command = .uciPacket h b := by
  obtain ⟨env, c, out⟩ := ev
  cases c with
  | uciPacket k b =>
    unfold isFrom
    simp
  | _ => simp [isFrom]

theorem goes_later {h : Nat} {ev : Pica.Event} (he : isFrom h ev = true) {u v : List Pica.Event} :
    ∀ {p q r : Pica}, OnlyPackets u → (∀ x ∈ u, isFrom h x = false) → p.step ev.env ev.command = .ok (q, ev.out) → Goes q (u ++ v) r →
      Goes p (u ++ ev :: v) r := by
  induction u with
  | nil => intro p q r _ _ hs hg; exact .cons hs hg
  | cons x u ih =>
    intro p q r ho hu hs hg
    rw [List.cons_append] at hg
    cases hg with
    | @cons _ q' _ _ _ hs' hg =>
      obtain ⟨k, hk⟩ := ho x (List.mem_cons_self ..)
      have hkh : h ≠ k := by
        rintro rfl
        rw [hu x (List.mem_cons_self ..)] at hk
        cases hk
      obtain ⟨b, hb⟩ := isFrom_iff.mp he
      obtain ⟨c, hc⟩ := isFrom_iff.mp hk
      rw [hb] at hs
      rw [hc] at hs'
      obtain ⟨s, h1, h2⟩ := C120_swap hkh hs hs'
      rw [← hc] at h1
      rw [← hb] at h2
      exact .cons h1 (ih (fun y hy => ho y (List.mem_cons_of_mem _ hy)) (fun y hy => hu y (List.mem_cons_of_mem _ hy)) h2 hg)

/-- C120: whatever way the packets of the hosts are mixed, every host gets the same answers and the state in the end is the
same. -/
theorem C120_mixed {tr ur : List Pica.Event} {p r : Pica} (hg : Goes p tr r) (ht : OnlyPackets tr) (hu : OnlyPackets ur)
    (hc : ∀ h, conversation h ur = conversation h tr) : Goes p ur r := by
  induction hg generalizing ur with
  | nil =>
    cases ur with
    | nil => exact .nil
    | cons x ur =>
      obtain ⟨h, hx⟩ := hu x (List.mem_cons_self ..)
      have := hc h
      unfold conversation at this
      rw [List.filter_cons_of_pos hx] at this
      cases this
  | @cons p q r ev tr hs hg ih =>
    obtain ⟨h, he⟩ := ht ev (List.mem_cons_self ..)
    have hh := hc h
    unfold conversation at hh
    rw [List.filter_cons_of_pos he] at hh
    obtain ⟨u, v, rfl, hno, -, hv⟩ := List.filter_eq_cons_iff.mp hh
    have hu1 : OnlyPackets u := fun y hy => hu y (List.mem_append_left _ hy)
    refine goes_later he hu1 (fun x hx => by simpa using hno x hx) hs (ih (fun y hy => ht y (List.mem_cons_of_mem _ hy)) ?_ ?_)
    · intro y hy
      rcases List.mem_append.mp hy with hy | hy
      · exact hu1 y hy
      · exact hu y (List.mem_append_right _ (List.mem_cons_of_mem _ hy))
    · intro k
      have hk := hc k
      unfold conversation at hk ⊢
      rw [List.filter_append, List.filter_cons] at hk
      rw [List.filter_append]
      by_cases hkh : isFrom k ev = true
      · have : k = h := by
          obtain ⟨b, hb⟩ := isFrom_iff.mp he
          obtain ⟨c, hc⟩ := isFrom_iff.mp hkh
          rw [hb] at hc
          cases hc
          rfl
        subst this
        have : u.filter (isFrom k) = [] := List.filter_eq_nil_iff.mpr fun x hx => by simpa using hno x hx
        rw [this, hv]
        rfl
      · rw [if_neg hkh, List.filter_cons_of_neg hkh] at hk
        exact hk

/-- C120: nor does the packet of one host decide whether that of another ends the emulator, and in which way. -/
theorem C120_panic {p q : Pica} {env env' : Env} {a b : Nat} {x y : Bytes} {o : List Out} (hn : a ≠ b)
    (h : p.step env (.uciPacket a x) = .ok (q, o)) (z : Panic) :
    q.step env' (.uciPacket b y) = .error z ↔ p.step env' (.uciPacket b y) = .error z := by
  change p.uciPacket env a x = _ at h
  change q.uciPacket env' b y = _ ↔ p.uciPacket env' b y = _
  have hd : q.devices.get? b = p.devices.get? b := by
    unfold Pica.uciPacket at h
    split at h
    · cases h; rfl
    · rename_i d _
      cases hx : d.receivePacket env.tid x with
      | error w => rw [hx] at h; cases h
      | ok w =>
        rw [hx] at h
        cases h
        exact AMap.get?_insert_of_ne hn.symm
  unfold Pica.uciPacket
  rw [hd]
  cases p.devices.get? b with
  | none => exact ⟨nofun, nofun⟩
  | some e =>
    dsimp only
    cases e.receivePacket env'.tid y with
    | error w => exact Iff.rfl
    | ok w => exact ⟨nofun, nofun⟩

theorem mac_kept {d d' : Device} {tid : Nat} {x : Bytes} {r : Option Packet} {e : List Effect}
    (h : d.receivePacket tid x = .ok (d', r, e)) : d'.macAddress = d.macAddress := by
  exact (devMove_handle (Device.receivePacket_move h)).2

theorem any_insert {K V : Type} [DecidableEq K] {m : AMap K V} {a : K} {v w : V} (f : V → Bool) (hv : m.get? a = some v) (hf : f w = f v) :
    (m.insert a w).any (fun e => f e.2) = m.any fun e => f e.2 := by
  induction m with
  | nil => cases hv
  | cons e m ih =>
    rw [AMap.get?_cons] at hv
    by_cases h : e.1 = a
    · rw [if_pos h] at hv
      cases hv
      simp only [AMap.insert, h, if_true, List.any_cons, hf]
    · rw [if_neg h] at hv
      simp only [AMap.insert, h, if_false]
      rw [List.any_cons, List.any_cons]
      exact congrArg _ (ih hv)

/-- What a packet does is in the device only. -/
theorem packet_shape {p q : Pica} {env : Env} {a : Nat} {x : Bytes} {o : List Out} (h : p.step env (.uciPacket a x) = .ok (q, o)) :
    (∀ m, q.macKnown m = p.macKnown m) ∧ q.anchors = p.anchors ∧ q.counter = p.counter ∧
      ∀ (n : Nat) (as : AMap MacAddress Anchor), Pica.step ⟨n, p.devices, as⟩ env (.uciPacket a x) = .ok (⟨n, q.devices, as⟩, o) := by
  change p.uciPacket env a x = _ at h
  have hstep : ∀ (n : Nat) (as : AMap MacAddress Anchor), Pica.step ⟨n, p.devices, as⟩ env (.uciPacket a x) =
      Pica.uciPacket ⟨n, p.devices, as⟩ env a x := fun _ _ => rfl
  simp only [hstep]
  unfold Pica.uciPacket at h ⊢
  cases hd : p.devices.get? a with
  | none =>
    rw [hd] at h
    cases h
    exact ⟨fun _ => rfl, rfl, rfl, fun _ _ => by simp only [hd]⟩
  | some d =>
    rw [hd] at h
    dsimp only at h
    cases hx : d.receivePacket env.tid x with
    | error w => rw [hx] at h; cases h
    | ok w =>
      obtain ⟨d', r, e⟩ := w
      rw [hx] at h
      cases h
      refine ⟨fun m => ?_, rfl, rfl, fun _ _ => by simp only [hd, hx]; rfl⟩
      unfold Pica.macKnown
      exact congrArg _ (any_insert (fun d => decide (d.macAddress = m)) hd (by
        rw [(mac_kept hx)]))

theorem anchor_shape {p q r : Pica} {env : Env} {c : Command} {o : List Out} (hc : ∃ m, c = .createAnchor m ∨ c = .destroyAnchor m)
    (hm : ∀ m, q.macKnown m = p.macKnown m) (ha : q.anchors = p.anchors) (hn : q.counter = p.counter) (h : p.step env c = .ok (r, o)) :
    r.devices = p.devices ∧ q.step env c = .ok (⟨r.counter, q.devices, r.anchors⟩, o) := by
  obtain ⟨n, ds, as⟩ := q
  subst ha hn
  obtain ⟨m, rfl | rfl⟩ := hc
  · change p.createAnchor m = _ at h
    change _ ∧ Pica.createAnchor _ m = _
    unfold Pica.createAnchor at h ⊢
    rw [hm]
    dsimp only
    split at h
    · rename_i hk
      rw [Except.ok.injEq, Prod.mk.injEq] at h
      obtain ⟨rfl, rfl⟩ := h
      exact ⟨rfl, if_pos hk⟩
    · rename_i hk
      split at h
      · cases h
      · rename_i hl
        rw [Except.ok.injEq, Prod.mk.injEq] at h
        obtain ⟨rfl, rfl⟩ := h
        exact ⟨rfl, by rw [if_neg hk, if_neg hl]⟩
  · change Except.ok (p.destroyAnchor m) = _ at h
    change _ ∧ Except.ok (Pica.destroyAnchor _ m) = _
    rw [Except.ok.injEq] at h
    unfold Pica.destroyAnchor at h ⊢
    dsimp only
    split at h
    · rw [Prod.mk.injEq] at h
      obtain ⟨rfl, rfl⟩ := h
      exact ⟨rfl, rfl⟩
    · rw [Prod.mk.injEq] at h
      obtain ⟨rfl, rfl⟩ := h
      exact ⟨rfl, rfl⟩

/-- C120: a packet and a command of the web server that creates or destroys an anchor can be processed in either order, too. -/
theorem C120_anchor {p r : Pica} {env env' : Env} {a : Nat} {x : Bytes} {o o' : List Out} {c : Command}
    (hc : ∃ m, c = .createAnchor m ∨ c = .destroyAnchor m) :
    (∃ q, p.step env (.uciPacket a x) = .ok (q, o) ∧ q.step env' c = .ok (r, o')) ↔
      ∃ s, p.step env' c = .ok (s, o') ∧ s.step env (.uciPacket a x) = .ok (r, o) := by
  constructor
  · rintro ⟨q, h1, h2⟩
    obtain ⟨hm, ha, hn, hp⟩ := packet_shape h1
    obtain ⟨hd, h3⟩ := anchor_shape (q := p) hc (fun m => (hm m).symm) ha.symm hn.symm h2
    refine ⟨_, h3, ?_⟩
    have := hp r.counter r.anchors
    rw [← hd] at this
    exact this
  · rintro ⟨s, h1, h2⟩
    obtain ⟨hd, -⟩ := anchor_shape (q := p) hc (fun m => rfl) rfl rfl h1
    obtain ⟨-, ha, hn, hp⟩ := packet_shape h2
    have h3 := hp p.counter p.anchors
    rw [hd] at h3
    refine ⟨_, h3, ?_⟩
    obtain ⟨hm, -⟩ := packet_shape (p := p) h3
    have := (anchor_shape (q := ⟨p.counter, r.devices, p.anchors⟩) hc hm rfl rfl h1).2
    rw [← ha, ← hn] at this
    exact this

open Ex in
/-- C120: packets and rounds do depend on each other: the round of a host is told with other measurements when the peer has stopped
before. -/
theorem C120_round : ∃ (p q r s : Pica) (o o₁ o₂ : List Out) (b : Bytes), p.Reachable ∧ p.step env (.uciPacket 1 b) = .ok (q, o) ∧
    q.step env (.ranging 0 7) = .ok (r, o₁) ∧ p.step env (.ranging 0 7) = .ok (s, o₂) ∧ sentTo 0 o₁ ≠ sentTo 0 o₂ := by
  let p := after (oneActive ++ [(env, .connect), pkt 1 reset, pkt 1 (sessionInit 7 1), pkt 1 (setApp 7 8 controlee), pktT 42 1 (start 7)])
  have hp : p.Reachable := after_reachable _ (by decide +kernel)
  obtain ⟨⟨q, o⟩, h1, hf⟩ := exists_ok (x := p.step env (.uciPacket 1 (stop 7)))
    (f := fun y => (y.1.step env (.ranging 0 7)).toOption.bind fun z => (p.step env (.ranging 0 7)).toOption.map fun w =>
      decide (sentTo 0 z.2 ≠ sentTo 0 w.2)) (b := some true) (by decide +kernel)
  rw [Option.bind_eq_some_iff] at hf
  obtain ⟨z, hz, hf⟩ := hf
  rw [Option.map_eq_some_iff] at hf
  obtain ⟨w, hw, hf⟩ := hf
  obtain ⟨_, h2, rfl⟩ := exists_ok (f := id) (x := q.step env (.ranging 0 7)) (b := z) (by rw [hz]; rfl)
  obtain ⟨_, h3, rfl⟩ := exists_ok (f := id) (x := p.step env (.ranging 0 7)) (b := w) (by rw [hw]; rfl)
  exact ⟨p, q, _, _, o, _, _, stop 7, hp, h1, h2, h3, of_decide_eq_true hf⟩

open Ex in
/-- Both hosts of an ACTIVE session stop, in either order. -/
example : ∃ (p r : Pica) (e e' : Pica.Event), p.Reachable ∧ Goes p [e, e'] r ∧ Goes p [e', e] r ∧ OnlyPackets [e, e'] ∧
    e.out ≠ [] ∧ e'.out ≠ [] ∧ isFrom 0 e = true ∧ isFrom 1 e' = true := by
  obtain ⟨⟨q, o⟩, h1, hf⟩ := exists_ok (x := (after twoActive).step env (.uciPacket 0 (stop 7)))
    (f := fun y => (y.2.isEmpty, (y.1.step env (.uciPacket 1 (stop 7))).toOption.map fun z => z.2.isEmpty))
    (b := (false, some false)) (by decide +kernel)
  rw [Prod.mk.injEq] at hf
  obtain ⟨⟨r, o'⟩, h2, hf2⟩ := exists_ok hf.2
  have hg : Goes (after twoActive) [⟨env, .uciPacket 0 (stop 7), o⟩, ⟨env, .uciPacket 1 (stop 7), o'⟩] r := .cons h1 (.cons h2 .nil)
  have ho : OnlyPackets [⟨env, .uciPacket 0 (stop 7), o⟩, ⟨env, .uciPacket 1 (stop 7), o'⟩] := by
    intro ev hev
    rcases List.mem_cons.mp hev with rfl | hev
    · exact ⟨0, rfl⟩
    · rw [List.mem_singleton.mp hev]; exact ⟨1, rfl⟩
  refine ⟨_, r, _, _, after_reachable _ twoActive_ok, hg, C120_mixed hg ho ?_ ?_, ho, ?_, ?_, rfl, rfl⟩
  · intro ev hev
    exact ho ev (by simpa [or_comm] using hev)
  · intro h
    unfold conversation isFrom
    by_cases h0 : 0 = h
    · subst h0; rfl
    · by_cases h1 : 1 = h
      · subst h1; rfl
      · simp [h0, h1]
  · rintro (rfl : o = []); exact absurd hf.1 (by simp)
  · rintro (rfl : o' = []); exact absurd hf2 (by simp)

open Ex in
/-- A packet of host 1 that ends the emulator, with and without one of host 0 before it. -/
example : ∃ (p q : Pica) (o : List Out) (b : Bytes), p.Reachable ∧ p.step env (.uciPacket 0 (sessionInit 7 1)) = .ok (q, o) ∧ q ≠ p ∧
    p.step env (.uciPacket 1 b) = .error .sessionType ∧ q.step env (.uciPacket 1 b) = .error .sessionType := by
  let p := after [(env, .connect), (env, .connect), pkt 0 reset, pkt 1 reset, pkt 1 (sessionInit 7 2)]
  have hp : p.Reachable := after_reachable _ (by decide +kernel)
  obtain ⟨⟨q, o⟩, h1, hf⟩ := exists_ok (x := p.step env (.uciPacket 0 (sessionInit 7 1))) (f := fun y => decide (y.1 ≠ p)) (b := true)
    (by decide +kernel)
  have h2 : p.step env (.uciPacket 1 (setApp 7 8 controller)) = .error .sessionType := panics_eq (by decide +kernel)
  exact ⟨p, q, o, _, hp, h1, of_decide_eq_true hf, h2, (C120_panic (by decide) h1 _).mpr h2⟩

open Ex in
/-- A packet of a host and a new anchor. -/
example : ∃ (p r q : Pica) (o o' : List Out) (m : MacAddress), p.Reachable ∧ p.step env (.uciPacket 0 (stop 7)) = .ok (q, o) ∧
    q.step env (.createAnchor m) = .ok (r, o') ∧ r.anchors ≠ p.anchors ∧ r.devices ≠ p.devices := by
  obtain ⟨⟨q, o⟩, h1, hf⟩ := exists_ok (x := (after oneActive).step env (.uciPacket 0 (stop 7)))
    (f := fun y => (y.1.step env (.createAnchor (.short ⟨[0, 0xb1], rfl⟩))).toOption.map fun z : Pica × List Out =>
      (decide (z.1.anchors ≠ (after oneActive).anchors), decide (z.1.devices ≠ (after oneActive).devices)))
    (b := some (true, true)) (by decide +kernel)
  obtain ⟨⟨r, o'⟩, h2, hf2⟩ := exists_ok hf
  rw [Prod.mk.injEq] at hf2
  exact ⟨_, r, q, o, o', _, after_reachable _ oneActive_ok, h1, h2, of_decide_eq_true hf2.1, of_decide_eq_true hf2.2⟩

end Pica.Props

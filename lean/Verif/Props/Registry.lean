import Verif.Spec.Registry
import Verif.Proofs.Book
import Verif.Proofs.Examples
/-! C39-C42: handles, anchors, MAC addresses and connection events. -/

set_option linter.dupNamespace false

namespace Pica.Props
open Spec Pica

theorem events_append (a b : List Out) : events (a ++ b) = events a ++ events b := List.filterMap_append
theorem replies_append (a b : List Out) : replies (a ++ b) = replies a ++ replies b := List.filterMap_append
theorem events_effects (h : Nat) (es : List Effect) : events (es.map (.effect h)) = [] := by
  unfold events; rw [List.filterMap_eq_nil_iff]; intro x hx; obtain ⟨y, -, rfl⟩ := List.mem_map.mp hx; rfl
theorem replies_effects (h : Nat) (es : List Effect) : replies (es.map (.effect h)) = [] := by
  unfold replies; rw [List.filterMap_eq_nil_iff]; intro x hx; obtain ⟨y, -, rfl⟩ := List.mem_map.mp hx; rfl

/-- The events of a command. -/
def said (p : Pica) : Command → List PicaEvent
  | .connect => [.connected p.counter (deviceMac p.counter)]
  | .disconnect x => ((p.devices.get? x).map fun d => .disconnected x d.macAddress).toList
  | _ => []

/-- The events and replies of a step. -/
theorem step_said {p p' : Pica} {env : Env} {c : Command} {out : List Out} (hi : p.PInv) (h : p.step env c = .ok (p', out)) :
    events out = said p c ∧
    ((∀ m, c ≠ .createAnchor m) → (∀ m, c ≠ .destroyAnchor m) → replies out = []) := by
  have quiet : (∀ x ∈ out, (∃ k q, x = .send k q) ∨ ∃ k e, x = .effect k e) → events out = [] ∧ replies out = [] := by
    intro hq
    unfold events replies
    rw [List.filterMap_eq_nil_iff, List.filterMap_eq_nil_iff]
    constructor <;>
    · intro x hx
      rcases hq x hx with ⟨k, q, rfl⟩ | ⟨k, e, rfl⟩ <;> rfl
  cases c with
  | connect =>
    cases h
    refine ⟨?_, fun _ _ => ?_⟩
    · rw [events_append, events_effects]; rfl
    · rw [replies_append, replies_effects]; rfl
  | disconnect x =>
    change Except.ok (p.disconnect x) = _ at h
    unfold Pica.disconnect at h
    split at h
    · rename_i d hd
      cases h
      unfold said
      dsimp only
      rw [hd]
      refine ⟨?_, fun _ _ => ?_⟩
      · show _ :: events (d.dropSessions.map (.effect x)) = _
        rw [events_effects]; rfl
      · show replies (d.dropSessions.map (.effect x)) = _
        rw [replies_effects]
    · rename_i hd
      cases h
      unfold said
      dsimp only
      rw [hd]
      exact ⟨rfl, fun _ _ => rfl⟩
  | ranging x y =>
    obtain ⟨d, s, ms, o, -, -, -, -, hsend, -, hout⟩ := round_ok hi h
    have := quiet (by
      intro z hz
      rcases hout with ⟨-, rfl, -⟩ | ⟨-, rfl, -⟩
      · rcases List.mem_append.mp hz with hz | hz
        · exact .inl (hsend z hz)
        · rw [List.mem_singleton.mp hz]; exact .inl ⟨_, _, rfl⟩
      · exact .inl (hsend z hz))
    exact ⟨this.1, fun _ _ => this.2⟩
  | stopRanging mac y =>
    cases h
    have := quiet (by
      intro x hx
      obtain ⟨e, -, he⟩ := List.mem_flatMap.mp hx
      obtain ⟨z, -, rfl⟩ := List.mem_map.mp he
      exact .inr ⟨_, _, rfl⟩)
    exact ⟨this.1, fun _ _ => this.2⟩
  | uciPacket x bytes =>
    have := quiet (by
      change p.uciPacket env x bytes = _ at h
      unfold Pica.uciPacket at h
      split at h
      · cases h; simp
      · simp only [bind, Except.bind] at h
        split at h
        · cases h
        · rename_i z _
          cases h
          intro w hw
          rcases List.mem_append.mp hw with hw | hw
          · obtain ⟨q, -, rfl⟩ := Option.map_eq_some_iff.mp (Option.mem_toList.mp hw)
            exact .inl ⟨_, _, rfl⟩
          · obtain ⟨q, -, rfl⟩ := List.mem_map.mp hw
            exact .inr ⟨_, _, rfl⟩)
    exact ⟨this.1, fun _ _ => this.2⟩
  | createAnchor mac =>
    refine ⟨?_, fun hc => absurd rfl (hc mac)⟩
    cases step_anc h with
    | same _ _ hc => exact absurd rfl (hc mac)
    | known => rfl
    | create => rfl
  | destroyAnchor mac =>
    refine ⟨?_, fun _ hc => absurd rfl (hc mac)⟩
    cases step_anc h with
    | same _ _ _ hc => exact absurd rfl (hc mac)
    | unknown => rfl
    | destroy => rfl

/-! ### C39 -/

theorem step_given {p p' : Pica} {env : Env} {c : Command} {out : List Out} (hi : p.PInv) (h : p.step env c = .ok (p', out)) :
    List.range p.counter ++ given ⟨env, c, out⟩ = List.range p'.counter := by
  obtain ⟨he, -⟩ := step_said hi h
  unfold given
  rw [he]
  cases step_anc h with
  | same c out h1 h2 _ hc =>
    rw [hc]
    cases c with
    | connect => rw [if_pos rfl, List.range_succ]; rfl
    | disconnect x =>
      rw [if_neg (by simp)]
      unfold said
      dsimp only
      cases p.devices.get? x <;> simp
    | createAnchor m => exact absurd rfl (h1 m)
    | _ => simp [said]
  | known m _ e => subst e; exact List.append_nil _
  | create m _ e => subst e; exact List.range_succ.symm
  | unknown m _ e => subst e; exact List.append_nil _
  | destroy m a _ e => subst e; exact List.append_nil _

theorem reorder_counter {p q : Pica} (h : Reorder p q) : q.counter = p.counter := by cases h <;> rfl

/-- C39: the handles given to devices and anchors, in the order in which they are given, are 0, 1, 2, …; no two are
equal. -/
theorem C39_handles (p : Pica) (tr : List Pica.Event) (hr : Run .new tr p) :
    (tr.flatMap given).Nodup ∧ ∃ n, tr.flatMap given = List.range n := by
  have key : tr.flatMap given = List.range p.counter := by
    generalize hp₀ : Pica.new = p₀ at hr
    induction hr with
    | nil => subst hp₀; rfl
    | @reorder q r tr hrun hro ih => rw [reorder_counter hro]; exact ih
    | @cmd q r tr env c out hrun hs ih =>
      rw [List.flatMap_append, ih, List.flatMap_cons, List.flatMap_nil, List.append_nil]
      exact step_given (reachable_inv ⟨tr, hp₀ ▸ hrun⟩) hs
  rw [key]
  exact ⟨List.nodup_range, _, rfl⟩

/-! ### C40 -/

/-- An anchor or a connected device has the address. -/
def Taken (p : Pica) (m : MacAddress) : Prop :=
  (∃ a, p.anchors.get? m = some a) ∨ ∃ h d, p.devices.get? h = some d ∧ d.macAddress = m

theorem macKnown_iff {p : Pica} (hi : p.PInv) (m : MacAddress) : p.macKnown m = true ↔ Taken p m := by
  unfold Pica.macKnown Taken
  rw [Bool.or_eq_true, Option.isSome_iff_exists, List.any_eq_true]
  constructor
  · rintro (h | ⟨⟨k, d⟩, he, hd⟩)
    · exact .inl h
    · exact .inr ⟨k, d, AMap.get?_of_mem hi.devNodup he, of_decide_eq_true hd⟩
  · rintro (h | ⟨k, d, hd, hm⟩)
    · exact .inl h
    · exact .inr ⟨(k, d), AMap.mem_of_get? hd, decide_eq_true hm⟩

/-- C40: creating an anchor fails if the address is taken, and then changes nothing. -/
theorem C40_create_taken (p : Pica) (hp : p.Reachable) (env : Env) (m : MacAddress) (ht : Taken p m) :
    p.step env (.createAnchor m) = .ok (p, [.anchorReply (.error (.deviceAlreadyExists m))]) := by
  show p.createAnchor m = _
  unfold Pica.createAnchor
  rw [if_pos ((macKnown_iff (reachable_inv hp) m).mpr ht)]

/-- C40: otherwise it succeeds with a handle no device or anchor has, and adds just this anchor. -/
theorem C40_create_free (p : Pica) (hp : p.Reachable) (env : Env) (m : MacAddress) (ht : ¬Taken p m) :
    ∃ p' h, p.step env (.createAnchor m) = .ok (p', [.anchorReply (.ok h)]) ∧ p'.devices = p.devices ∧
      p.devices.get? h = none ∧ (∀ n a, p.anchors.get? n = some a → a.handle ≠ h) ∧
      (p'.anchors.get? m).map Anchor.handle = some h ∧ ∀ n, n ≠ m → p'.anchors.get? n = p.anchors.get? n := by
  have hi := reachable_inv hp
  refine ⟨{ p with counter := p.counter + 1, anchors := p.anchors.insert m ⟨p.counter, m⟩ }, p.counter, ?_, rfl, ?_, ?_, ?_, ?_⟩
  · show p.createAnchor m = _
    unfold Pica.createAnchor
    rw [if_neg (mt (macKnown_iff hi m).mp ht), if_neg]
    intro hs
    exact ht (.inl (Option.isSome_iff_exists.mp hs))
  · cases hd : p.devices.get? p.counter with
    | none => rfl
    | some d => exact absurd (hi.dev _ _ hd).2.1 (Nat.lt_irrefl _)
  · intro n a ha he
    have := (hi.anc n a ha).2.1
    omega
  · show (AMap.get? (AMap.insert _ _ _) _).map _ = _
    rw [AMap.get?_insert_self]; rfl
  · intro n hn
    exact AMap.get?_insert_of_ne hn

/-- C40: destroying an anchor that does not exist fails and changes nothing. -/
theorem C40_destroy_absent (p : Pica) (env : Env) (m : MacAddress) (hm : p.anchors.get? m = none) :
    p.step env (.destroyAnchor m) = .ok (p, [.anchorReply (.error (.deviceNotFound m))]) := by
  show Except.ok (p.destroyAnchor m) = _
  unfold Pica.destroyAnchor
  rw [hm]

/-- C40: destroying an anchor returns its handle and removes just this anchor. -/
theorem C40_destroy_present (p : Pica) (env : Env) (m : MacAddress) (a : Anchor) (hm : p.anchors.get? m = some a) :
    ∃ p', p.step env (.destroyAnchor m) = .ok (p', [.anchorReply (.ok a.handle)]) ∧ p'.devices = p.devices ∧
      p'.counter = p.counter ∧ p'.anchors.get? m = none ∧ ∀ n, n ≠ m → p'.anchors.get? n = p.anchors.get? n := by
  refine ⟨{ p with anchors := p.anchors.erase m }, ?_, rfl, rfl, AMap.get?_erase_self .., fun n hn => AMap.get?_erase_of_ne hn⟩
  show Except.ok (p.destroyAnchor m) = _
  unfold Pica.destroyAnchor
  rw [hm]

/-- C40: the anchors are exactly those of the registry a client would keep of the answers, with the same handles.
Nothing but the two anchor commands changes them. -/
theorem C40_registry (p : Pica) (tr : List Pica.Event) (hr : Run .new tr p) (m : MacAddress) :
    (p.anchors.get? m).map Anchor.handle = registry tr m := by
  generalize hp₀ : Pica.new = p₀ at hr
  induction hr with
  | nil => subst hp₀; rfl
  | @reorder q r tr hrun hro ih =>
    have hi := reachable_inv ⟨tr, hp₀ ▸ hrun⟩
    rw [AMap.get?_perm hi.ancNodup (reorder_dev hi hro).2.2.1]; exact ih
  | @cmd q r tr env c out hrun hs ih =>
    have hi := reachable_inv ⟨tr, hp₀ ▸ hrun⟩
    have hreg : registry (tr ++ [⟨env, c, out⟩]) = register (registry tr) ⟨env, c, out⟩ := by
      unfold registry
      rw [List.foldl_append]; rfl
    rw [hreg]
    have hsaid := (step_said hi hs).2
    cases step_anc hs with
    | same c out h1 h2 ha _ =>
      rw [ha, ih]
      unfold register
      dsimp only
      rw [hsaid h1 h2]
      cases c <;> rfl
    | known n _ e => subst e; exact ih
    | create n _ e =>
      subst e
      show (AMap.get? (AMap.insert _ _ _) _).map _ = if m = n then some q.counter else registry tr m
      rw [AMap.get?_insert]
      by_cases hm : n = m
      · rw [if_pos hm, if_pos hm.symm]; rfl
      · rw [if_neg hm, if_neg (Ne.symm hm)]; exact ih
    | unknown n _ e => subst e; exact ih
    | destroy n a _ e =>
      subst e
      show (AMap.get? (AMap.erase _ _) _).map _ = if m = n then none else registry tr m
      rw [AMap.get?_erase]
      by_cases hm : n = m
      · rw [if_pos hm, if_pos hm.symm]; rfl
      · rw [if_neg hm, if_neg (Ne.symm hm)]; exact ih

/-! ### C41 -/

theorem deviceMac_inj (h k : Nat) : deviceMac h = deviceMac k ↔ h % 65536 = k % 65536 := by
  unfold deviceMac
  rw [MacAddress.short.injEq, Subtype.mk.injEq]
  simp only [List.cons.injEq, and_true]
  rw [← UInt8.toNat_inj, ← UInt8.toNat_inj, UInt8.toNat_ofNat', UInt8.toNat_ofNat', UInt8.toNat_ofNat', UInt8.toNat_ofNat']
  omega

theorem anchor_older {p : Pica} (hr : p.Reachable) : ∀ m a k d, p.anchors.get? m = some a → p.devices.get? k = some d →
    d.macAddress = m → a.handle < k := by
  obtain ⟨tr, hr⟩ := hr
  generalize hp₀ : Pica.new = p₀ at hr
  induction hr with
  | nil => subst hp₀; intro m a k d h; cases h
  | @reorder q r tr hrun hro ih =>
    have hi := reachable_inv ⟨tr, hp₀ ▸ hrun⟩
    obtain ⟨-, -, hanc, hdev⟩ := reorder_dev hi hro
    intro m a k d ha hd hm
    rw [AMap.get?_perm hi.ancNodup hanc] at ha
    rcases hdev k with e | ⟨d₀, l, hd₀, -, hd₁⟩
    · rw [e] at hd; exact ih m a k d ha hd hm
    · rw [hd₁] at hd; cases hd; exact ih m a k d₀ ha hd₀ hm
  | @cmd q r tr env c out hrun hs ih =>
    have hi := reachable_inv ⟨tr, hp₀ ▸ hrun⟩
    have hi' := step_inv hi hs
    intro m a k d ha hd hm
    have hmac := (hi'.dev k d hd).2.2.1
    have hdev := step_dev hi hs k
    rw [hd] at hdev
    have old : q.anchors.get? m = some a → a.handle < k := by
      intro ha
      generalize hg : q.devices.get? k = o at hdev
      generalize effectsOf k out = e at hdev
      cases hdev with
      | move d₀ _ _ hmv => exact ih m a k d₀ ha hg (((hi.dev k d₀ hg).2.2.1.trans hmac.symm).trans hm)
      | connect _ hk => have := (hi.anc m a ha).2.1; omega
    cases step_anc hs with
    | same _ _ _ _ e => rw [e] at ha; exact old ha
    | known _ _ e => rw [e] at ha; exact old ha
    | create n hk e =>
      rw [e] at ha
      rw [AMap.get?_insert] at ha
      split at ha
      · rename_i hn
        subst hn
        exfalso
        have hd' : q.devices.get? k = some d := by rw [e] at hd; exact hd
        have : q.macKnown n = true := (macKnown_iff hi n).mpr (.inr ⟨k, d, hd', hm⟩)
        rw [hk] at this; cases this
      · exact old ha
    | unknown _ _ e => rw [e] at ha; exact old ha
    | destroy n _ _ e =>
      rw [e] at ha
      rw [AMap.get?_erase] at ha
      split at ha
      · cases ha
      · exact old ha

/-- C41 as far as it holds: two connected devices share an address exactly if their handles are equal modulo 65536,
and a device shares its address only with an anchor that is older (has a smaller handle). -/
theorem C41_unique_partial (p : Pica) (hp : p.Reachable) (h k : Nat) (d e : Device)
    (hd : p.devices.get? h = some d) (he : p.devices.get? k = some e) :
    (d.macAddress = e.macAddress ↔ h % 65536 = k % 65536) ∧
    ∀ m a, p.anchors.get? m = some a → d.macAddress = m → a.handle < h := by
  have hi := reachable_inv hp
  refine ⟨?_, fun m a ha hm => anchor_older hp m a h d ha hd hm⟩
  rw [(hi.dev h d hd).2.2.1, (hi.dev k e he).2.2.1]
  exact deviceMac_inj h k

/-- C41: the address of a device is that of its handle, the higher byte first. -/
theorem C41_address (p : Pica) (hp : p.Reachable) (h : Nat) (d : Device) (hd : p.devices.get? h = some d) :
    ∃ a b hab, d.macAddress = .short ⟨[a, b], hab⟩ ∧ a.toNat * 256 + b.toNat = h % 65536 := by
  refine ⟨_, _, _, ((reachable_inv hp).dev h d hd).2.2.1, ?_⟩
  rw [UInt8.toNat_ofNat', UInt8.toNat_ofNat']
  omega

/-- C41 fails: a device connected after the creation of an anchor can get its address. -/
theorem C41_false_anchor : ∃ p : Pica, p.Reachable ∧ ∃ d a, p.devices.get? 1 = some d ∧ p.anchors.get? d.macAddress = some a := by
  obtain ⟨⟨p, tr⟩, hp, hf⟩ := Ex.exists_ok
    (x := Ex.play .new [(Ex.env, .createAnchor (.short ⟨[0, 1], rfl⟩)), (Ex.env, .connect)])
    (f := fun x => (x.1.devices.get? 1).bind fun d => (x.1.anchors.get? d.macAddress).map fun _ => ()) (b := some ())
    (by decide +kernel)
  rw [Option.bind_eq_some_iff] at hf
  obtain ⟨d, hd, hf⟩ := hf
  rw [Option.map_eq_some_iff] at hf
  obtain ⟨a, ha, -⟩ := hf
  exact ⟨p, ⟨tr, Ex.play_run hp⟩, d, a, hd, ha⟩

/-- C41 fails: after 65537 connections the first and the last device have the same address. -/
theorem C41_false_devices : ∃ p : Pica, p.Reachable ∧ ∃ d e, p.devices.get? 0 = some d ∧ p.devices.get? 65536 = some e ∧
    d.macAddress = e.macAddress := by
  have key : ∀ n, ∃ p : Pica, p.Reachable ∧ p.counter = n ∧ ∀ k, k < n → ∃ d, p.devices.get? k = some d := by
    intro n
    induction n with
    | zero => exact ⟨.new, ⟨[], .nil⟩, rfl, fun k hk => absurd hk (Nat.not_lt_zero _)⟩
    | succ n ih =>
      obtain ⟨p, ⟨tr, hr⟩, hc, hd⟩ := ih
      refine ⟨p.addDevice.1, ⟨_, .cmd (env := Ex.env) (c := .connect) hr rfl⟩, by rw [← hc]; rfl, ?_⟩
      intro k hk
      show ∃ d, AMap.get? (AMap.insert p.devices p.counter _) k = some d
      rw [AMap.get?_insert, hc]
      split
      · exact ⟨_, rfl⟩
      · exact hd k (by omega)
  obtain ⟨p, hp, -, hd⟩ := key 65537
  obtain ⟨d, h0⟩ := hd 0 (by omega)
  obtain ⟨e, h1⟩ := hd 65536 (by omega)
  exact ⟨p, hp, d, e, h0, h1, ((C41_unique_partial p hp 0 65536 d e h0 h1).1.mpr (by decide))⟩

/-! ### C42 -/

/-- C42: the events of a handle are none, its connection, or its connection and then its disconnection with the same
address; the device exists exactly between the two and has that address. -/
theorem C42_events (p : Pica) (tr : List Pica.Event) (hr : Run .new tr p) (h : Nat) :
    (∃ d, p.devices.get? h = some d ∧ eventsOf h tr = [.connected h d.macAddress]) ∨
    (p.devices.get? h = none ∧ (eventsOf h tr = [] ∨ ∃ m, eventsOf h tr = [.connected h m, .disconnected h m])) := by
  have key : (∃ d, p.devices.get? h = some d ∧ eventsOf h tr = [.connected h d.macAddress]) ∨
    (p.devices.get? h = none ∧ (eventsOf h tr = [] ∨ h < p.counter ∧ ∃ m, eventsOf h tr = [.connected h m, .disconnected h m])) := by
    generalize hp₀ : Pica.new = p₀ at hr
    induction hr with
    | nil => subst hp₀; exact .inr ⟨rfl, .inl rfl⟩
    | @reorder q r tr hrun hro ih =>
      have hi := reachable_inv ⟨tr, hp₀ ▸ hrun⟩
      rw [reorder_counter hro]
      rcases (reorder_dev hi hro).2.2.2 h with e | ⟨d, l, hd, -, hq⟩
      · rw [e]; exact ih
      · rcases ih with ⟨d', hd', he⟩ | ⟨hn, -⟩
        · rw [hd] at hd'; cases hd'; exact .inl ⟨_, hq, he⟩
        · rw [hd] at hn; cases hn
    | @cmd q r tr env c out hrun hs ih =>
      have hi := reachable_inv ⟨tr, hp₀ ▸ hrun⟩
      have hi' := step_inv hi hs
      have hct := step_counter hs
      have happ : eventsOf h (tr ++ [⟨env, c, out⟩]) = eventsOf h tr ++ (events out).filter fun e => decide (eventHandle e = h) := by
        unfold eventsOf
        rw [List.flatMap_append, List.filter_append, List.flatMap_cons, List.flatMap_nil, List.append_nil]
      rw [happ, (step_said hi hs).1]
      have hdev := step_dev hi hs h
      -- neither a connection nor a disconnection of `h`
      have other : (said q c).filter (fun e => decide (eventHandle e = h)) = [] → c ≠ .disconnect h → ¬(c = .connect ∧ h = q.counter) →
          (∃ d, r.devices.get? h = some d ∧ eventsOf h tr ++ (said q c).filter (fun e => decide (eventHandle e = h)) =
            [.connected h d.macAddress]) ∨
          (r.devices.get? h = none ∧ (eventsOf h tr ++ (said q c).filter (fun e => decide (eventHandle e = h)) = [] ∨
            h < r.counter ∧ ∃ m, eventsOf h tr ++ (said q c).filter (fun e => decide (eventHandle e = h)) =
              [.connected h m, .disconnected h m])) := by
        intro hno hnd hnc
        rw [hno, List.append_nil]
        rcases ih with ⟨d, hd, he⟩ | ⟨hn, he⟩
        · rw [hd] at hdev
          generalize hg : r.devices.get? h = o at hdev
          generalize effectsOf h out = es at hdev
          cases hdev with
          | move _ d' _ hm => exact .inl ⟨d', rfl, by rw [(devMove_handle hm).2]; exact he⟩
          | disconnect _ hc => exact absurd hc hnd
        · rw [hn] at hdev
          generalize hg : r.devices.get? h = o at hdev
          generalize effectsOf h out = es at hdev
          cases hdev with
          | connect hc hx => exact absurd ⟨hc, hx⟩ hnc
          | absent =>
            refine .inr ⟨rfl, ?_⟩
            rcases he with he | ⟨hlt, he⟩
            · exact .inl he
            · exact .inr ⟨by omega, he⟩
      cases c with
      | connect =>
        by_cases hh : h = q.counter
        · subst hh
          cases hs
          left
          refine ⟨_, AMap.get?_insert_self .., ?_⟩
          rcases ih with ⟨d, hd, -⟩ | ⟨-, he | ⟨hlt, -⟩⟩
          · exact absurd (hi.dev _ _ hd).2.1 (Nat.lt_irrefl _)
          · rw [he]
            simp only [said, List.nil_append, List.filter_cons, eventHandle, decide_true, if_true, List.filter_nil]
            congr 2
          · exact absurd hlt (Nat.lt_irrefl _)
        · refine other ?_ (by simp) (fun hc => hh hc.2)
          simp [said, eventHandle, Ne.symm hh]
      | disconnect x =>
        by_cases hx : x = h
        · subst hx
          rcases ih with ⟨d, hd, he⟩ | ⟨hn, he⟩
          · right
            have hlt := (hi.dev _ _ hd).2.1
            refine ⟨?_, .inr ⟨by omega, d.macAddress, ?_⟩⟩
            · change Except.ok (q.disconnect x) = _ at hs
              unfold Pica.disconnect at hs
              rw [hd] at hs
              cases hs
              exact AMap.get?_erase_self ..
            · unfold said
              dsimp only
              rw [he, hd]; simp [eventHandle]
          · right
            refine ⟨?_, ?_⟩
            · change Except.ok (q.disconnect x) = _ at hs
              unfold Pica.disconnect at hs
              rw [hn] at hs
              cases hs
              exact hn
            · unfold said
              dsimp only
              rw [hn]
              simp only [Option.map_none, Option.toList_none, List.filter_nil, List.append_nil]
              rcases he with he | ⟨hlt, he⟩
              · exact .inl he
              · exact .inr ⟨by omega, he⟩
        · refine other ?_ (by simpa using hx) (by simp)
          unfold said
          dsimp only
          cases q.devices.get? x with
          | none => rfl
          | some d => simp [eventHandle, hx]
      | ranging x y => exact other rfl (by simp) (by simp)
      | stopRanging x y => exact other rfl (by simp) (by simp)
      | uciPacket x y => exact other rfl (by simp) (by simp)
      | createAnchor x => exact other rfl (by simp) (by simp)
      | destroyAnchor x => exact other rfl (by simp) (by simp)
  rcases key with h1 | ⟨h1, h2 | ⟨-, h2⟩⟩
  · exact .inl h1
  · exact .inr ⟨h1, .inl h2⟩
  · exact .inr ⟨h1, .inr h2⟩

/-! ### A history -/

/-- Two connections, an anchor, a second one with the same address, the departure of a device, the end of the anchor. -/
def visits : List (Env × Command) :=
  [(Ex.env, .connect), (Ex.env, .createAnchor (.short ⟨[9, 9], rfl⟩)), (Ex.env, .createAnchor (.short ⟨[9, 9], rfl⟩)),
   (Ex.env, .connect), (Ex.env, .disconnect 0), (Ex.env, .destroyAnchor (.short ⟨[9, 9], rfl⟩)),
   (Ex.env, .destroyAnchor (.short ⟨[9, 9], rfl⟩)), (Ex.env, .createAnchor (.short ⟨[0, 0], rfl⟩))]

example : (Ex.trace visits).flatMap given = [0, 1, 2, 3] := by decide +kernel
example : eventsOf 0 (Ex.trace visits) = [.connected 0 (deviceMac 0), .disconnected 0 (deviceMac 0)] ∧
    eventsOf 2 (Ex.trace visits) = [.connected 2 (deviceMac 2)] ∧ eventsOf 5 (Ex.trace visits) = [] := by decide +kernel
example : registry (Ex.trace visits) (.short ⟨[9, 9], rfl⟩) = none ∧ registry (Ex.trace visits) (.short ⟨[0, 0], rfl⟩) = some 3 ∧
    registry (Ex.trace (visits.take 5)) (.short ⟨[9, 9], rfl⟩) = some 1 := by decide +kernel
example : (Ex.trace visits).flatMap (fun ev => ev.out.filterMap fun
      | .anchorReply (.ok h) => some (Sum.inl h)
      | .anchorReply (.error e) => some (.inr e)
      | _ => none) =
    [.inl 1, .inr (.deviceAlreadyExists (.short ⟨[9, 9], rfl⟩)), .inl 1, .inr (.deviceNotFound (.short ⟨[9, 9], rfl⟩)), .inl 3] := by
  decide +kernel
/-- An address that is taken by an anchor, one taken by a device, and one that is free. -/
example : ∃ p : Pica, p.Reachable ∧ Taken p (.short ⟨[9, 9], rfl⟩) ∧ Taken p (deviceMac 2) ∧ ¬Taken p (.short ⟨[8, 8], rfl⟩) := by
  obtain ⟨⟨p, tr⟩, hp, hf⟩ := Ex.exists_ok (x := Ex.play .new (visits.take 5))
    (f := fun x => (x.1.macKnown (.short ⟨[9, 9], rfl⟩), x.1.macKnown (deviceMac 2), x.1.macKnown (.short ⟨[8, 8], rfl⟩)))
    (b := (true, true, false)) (by decide +kernel)
  have hr : p.Reachable := ⟨tr, Ex.play_run hp⟩
  have hk := macKnown_iff (reachable_inv hr)
  refine ⟨p, hr, (hk _).mp (congrArg Prod.fst hf), (hk _).mp (congrArg (fun x => x.2.1) hf), fun ht => ?_⟩
  have := (hk _).mpr ht
  rw [show p.macKnown (.short ⟨[8, 8], rfl⟩) = false from congrArg (fun x => x.2.2) hf] at this
  cases this

end Pica.Props

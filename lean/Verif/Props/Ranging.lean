import Verif.Props.Life
import Verif.Props.Params
import Verif.Proofs.Book
/-! C33-C38 and C57: ranging rounds and in-band stops. -/

set_option linter.dupNamespace false

namespace Pica.Props
open Spec SessionState

/-! ### C33 -/

theorem disable_iff {s : Session} : View.of s.appConfig 0x0e = some [0] ↔ s.appConfig.sessionInfoNtfConfig = .disable := by
  show some [s.appConfig.sessionInfoNtfConfig.code] = some [0] ↔ _
  cases s.appConfig.sessionInfoNtfConfig <;> decide

/-- C33: a round sends its host one SESSION_INFO_NTF, whose measurements are one for each peer (see `peers`), in
order, with its address, distance and angles; with SESSION_INFO_NTF_CONFIG (0x0e) disabled it sends nothing. -/
theorem C33_measurements (p p' : Pica) (hp : p.Reachable) (env : Env) (h : Nat) (d : Device) (sid : UInt32) (s : Session)
    (out : List Out) (hd : p.devices.get? h = some d) (hs : d.sessions.get? sid = some s)
    (hr : p.step env (.ranging h sid) = .ok (p', out)) :
    if View.of s.appConfig 0x0e = some [0] then sentTo h out = []
    else ∃ ms, sentTo h out = [.ntf (.sessionInfo s.sequenceNumber sid 0 0 ms [])] ∧
      List.Forall₂ Carries (peers p env.estimate h sid s) ms := by
  obtain ⟨d', s', ms, o, hd', hs', hc, -, -, hself, hout⟩ := round_ok (Pica.reachable_inv hp) hr
  rw [hd] at hd'; cases hd'
  rw [hs] at hs'; cases hs'
  rcases hout with ⟨he, rfl, -⟩ | ⟨he, rfl, -⟩
  · rw [if_neg (fun h => he (disable_iff.mp h))]
    refine ⟨ms, ?_, hc⟩
    rw [sentTo_append, hself, sentTo_send, if_pos rfl]; rfl
  · rw [if_pos (disable_iff.mpr he)]
    exact hself

/-- The peers of a round, one by one: the anchors are those with an address of the destination list, the devices
are the other ones whose session with the same identifier is ACTIVE and compatible; of both only those with estimates in
both directions. -/
theorem C33_peers (p : Pica) (hp : p.Reachable) (est : Estimator) (h : Nat) (sid : UInt32) (s : Session) (e : Peer) :
    e ∈ peers p est h sid s ↔ est h e.handle = some e.there ∧ est e.handle h = some e.back ∧
      ((e.address ∈ s.appConfig.dstMacAddress ∧ (p.anchors.get? e.address).map Anchor.handle = some e.handle) ∨
       (e.handle ≠ h ∧ ∃ q t, p.devices.get? e.handle = some q ∧ q.sessions.get? sid = some t ∧
          t.state = sessionStateActive ∧ Compatible s.appConfig t.appConfig ∧ t.appConfig.deviceMacAddress = some e.address)) := by
  have hi := Pica.reachable_inv hp
  have hb : ∀ k x, bothWays est h k = some x ↔ est h k = some x.1 ∧ est k h = some x.2 := by
    intro k x
    unfold bothWays
    constructor
    · intro hx
      split at hx
      · cases hx; exact ⟨by assumption, by assumption⟩
      · cases hx
    · rintro ⟨h1, h2⟩; rw [h1, h2]
  obtain ⟨k, m, l, r⟩ := e
  unfold peers
  rw [List.mem_append, List.mem_filterMap, List.mem_filterMap]
  constructor
  · rintro (⟨m', hm', ha⟩ | ⟨⟨k', q⟩, hq, ha⟩)
    · unfold anchorPeer at ha
      rw [Option.bind_eq_some_iff] at ha
      obtain ⟨a, ha, hx⟩ := ha
      rw [Option.map_eq_some_iff] at hx
      obtain ⟨x, hx, he⟩ := hx
      cases he
      obtain ⟨h1, h2⟩ := (hb _ _).mp hx
      exact ⟨h1, h2, .inl ⟨hm', by rw [ha]; rfl⟩⟩
    · have hq' := AMap.get?_of_mem hi.devNodup hq
      unfold devicePeer at ha
      rw [Option.bind_eq_some_iff] at ha
      obtain ⟨t, ht, hx⟩ := ha
      split at hx
      · rename_i hc
        rw [Option.bind_eq_some_iff] at hx
        obtain ⟨m', hm', hx⟩ := hx
        rw [Option.map_eq_some_iff] at hx
        obtain ⟨x, hx, he⟩ := hx
        cases he
        obtain ⟨h1, h2⟩ := (hb _ _).mp hx
        exact ⟨h1, h2, .inr ⟨hc.1, q, t, hq', ht, hc.2.1, hc.2.2, hm'⟩⟩
      · cases hx
  · rintro ⟨h1, h2, ⟨hm, ha⟩ | ⟨hne, q, t, hq, ht, hta, hc, hmac⟩⟩
    · rw [Option.map_eq_some_iff] at ha
      obtain ⟨a, ha, hk⟩ := ha
      cases hk
      refine .inl ⟨m, hm, ?_⟩
      dsimp only at ha
      unfold anchorPeer
      rw [ha, Option.bind_some, (hb _ (l, r)).mpr ⟨h1, h2⟩]; rfl
    · refine .inr ⟨(k, q), AMap.mem_of_get? hq, ?_⟩
      unfold devicePeer
      rw [ht, Option.bind_some, if_pos ⟨hne, hta, hc⟩, hmac, Option.bind_some, (hb _ (l, r)).mpr ⟨h1, h2⟩]; rfl

/-- C33: no other device is measured twice in a round. -/
theorem C33_once (p : Pica) (hp : p.Reachable) (est : Estimator) (h : Nat) (sid : UInt32) (s : Session) :
    ((p.devices.filterMap fun e => devicePeer est h sid s e.1 e.2).map Peer.handle).Nodup ∧
    peers p est h sid s = s.appConfig.dstMacAddress.filterMap (anchorPeer est p.anchors h) ++
      p.devices.filterMap fun e => devicePeer est h sid s e.1 e.2 := by
  refine ⟨?_, rfl⟩
  have hn := (Pica.reachable_inv hp).devNodup
  have hk : ∀ k q e, devicePeer est h sid s k q = some e → e.handle = k := by
    intro k q e he
    unfold devicePeer at he
    rw [Option.bind_eq_some_iff] at he
    obtain ⟨t, -, he⟩ := he
    split at he
    · rw [Option.bind_eq_some_iff] at he
      obtain ⟨m, -, he⟩ := he
      rw [Option.map_eq_some_iff] at he
      obtain ⟨x, -, rfl⟩ := he
      rfl
    · cases he
  generalize p.devices = l at hn
  have hsub : ((l.filterMap fun e => devicePeer est h sid s e.1 e.2).map Peer.handle).Sublist (AMap.keys l) := by
    induction l with
    | nil => exact List.Sublist.refl _
    | cons e l ih =>
      have ih := ih (List.nodup_cons.mp hn).2
      rw [List.filterMap_cons]
      split
      · exact ih.cons _
      · rename_i y hy
        have : AMap.keys (e :: l) = e.1 :: AMap.keys l := rfl
        rw [this, List.map_cons, hk _ _ _ hy]
        exact ih.cons_cons _
  exact hn.sublist hsub

/-! ### C34 -/

/-- C34: of two devices with ACTIVE sessions of the same identifier, one measures the other exactly if the other
measures the one, with the two estimates exchanged. -/
theorem C34_mutual (p : Pica) (hp : p.Reachable) (est : Estimator) (a b : Nat) (da db : Device) (sid : UInt32)
    (sa sb : Session) (hda : p.devices.get? a = some da) (hdb : p.devices.get? b = some db)
    (hsa : da.sessions.get? sid = some sa) (hsb : db.sessions.get? sid = some sb) (hab : a ≠ b)
    (ha : sa.state = sessionStateActive) (hb : sb.state = sessionStateActive) :
    (∀ l r, (∃ m, ⟨b, m, l, r⟩ ∈ peers p est a sid sa) ↔ (∃ m, ⟨a, m, r, l⟩ ∈ peers p est b sid sb)) ∧
    ∀ m l r, ⟨b, m, l, r⟩ ∈ peers p est a sid sa → sb.appConfig.deviceMacAddress = some m := by
  have hi := Pica.reachable_inv hp
  have key : ∀ x y dx dy sx sy l r m, p.devices.get? x = some dx → p.devices.get? y = some dy →
      dx.sessions.get? sid = some sx → dy.sessions.get? sid = some sy → x ≠ y →
      (⟨y, m, l, r⟩ ∈ peers p est x sid sx → est x y = some l ∧ est y x = some r ∧
        Compatible sx.appConfig sy.appConfig ∧ sy.appConfig.deviceMacAddress = some m) := by
    intro x y dx dy sx sy l r m hx hy hsx hsy hxy he
    obtain ⟨h1, h2, ⟨-, h3⟩ | ⟨-, q, t, hq, ht, -, hc, hm⟩⟩ := (C33_peers p hp est x sid sx _).mp he
    · rw [Option.map_eq_some_iff] at h3
      obtain ⟨an, h3, h4⟩ := h3
      have := (hi.anc _ _ h3).2.2
      rw [h4] at this
      dsimp only at this
      rw [hy] at this; cases this
    · dsimp only at hq
      rw [hy] at hq; cases hq
      rw [hsy] at ht; cases ht
      exact ⟨h1, h2, hc, hm⟩
  have back : ∀ x y dx dy sx sy l r m, p.devices.get? x = some dx → p.devices.get? y = some dy →
      dx.sessions.get? sid = some sx → dy.sessions.get? sid = some sy → x ≠ y → sx.state = sessionStateActive →
      ⟨y, m, l, r⟩ ∈ peers p est x sid sx → ∃ m', ⟨x, m', r, l⟩ ∈ peers p est y sid sy := by
    intro x y dx dy sx sy l r m hx hy hsx hsy hxy hax he
    obtain ⟨h1, h2, hc, hm⟩ := key x y dx dy sx sy l r m hx hy hsx hsy hxy he
    have h3 := hc.2.2.1
    cases hmx : sx.appConfig.deviceMacAddress with
    | none => rw [hmx] at h3; cases h3
    | some m' =>
      exact ⟨m', (C33_peers p hp est y sid sy _).mpr ⟨h2, h1, .inr ⟨hxy, dx, sx, hx, hsx, hax, compatible_symm.mp hc, hmx⟩⟩⟩
  refine ⟨fun l r => ⟨?_, ?_⟩, fun m l r he => (key a b da db sa sb l r m hda hdb hsa hsb hab he).2.2.2⟩
  · rintro ⟨m, he⟩; exact back a b da db sa sb l r m hda hdb hsa hsb hab ha he
  · rintro ⟨m, he⟩; exact back b a db da sb sa r l m hdb hda hsb hsa hab.symm hb he

/-! ### C57 -/

open Classical in
/-- C57: a round of a session goes through exactly if every measured peer has a short
address, the receivers of the data are connected and the data fit a packet, and, with notifications enabled, there
are at most 255 measurements, the host is connected and the count does not overflow. -/
theorem C57_round_survives (p : Pica) (hp : p.Reachable) (env : Env) (h : Nat) (d : Device) (sid : UInt32) (s : Session)
    (hd : p.devices.get? h = some d) (hs : d.sessions.get? sid = some s) :
    (∃ x, p.step env (.ranging h sid) = .ok x) ↔
      (∀ e ∈ peers p env.estimate h sid s, ∃ a, e.address = .short a) ∧
      (∀ k q, p.devices.get? k = some q → Gets h sid s k q → ¬Unseen env.estimate h sid s k q →
        env.alive k = true ∧ s.data.length ≤ 65535) ∧
      (View.of s.appConfig 0x0e ≠ some [0] → (peers p env.estimate h sid s).length ≤ 255 ∧ env.alive h = true ∧
        s.sequenceNumber.toNat + 1 < 2 ^ 32) := by
  have hi := Pica.reachable_inv hp
  have hh := (hi.dev h d hd).1
  have hsess : d.session sid = some s := hs
  have hsv : ∀ k q, Delivered env.estimate h sid s (d.canStartDataTransfer sid) k q ↔
      Gets h sid s k q ∧ ¬Unseen env.estimate h sid s k q := by
    intro k q
    have hsend : d.canStartDataTransfer sid = true ↔ Exchanges s .initiator := by rw [sends_iff, hs]; simp
    unfold Delivered Gets
    rw [hsend]
    tauto
  have hts : ∀ ts : List Device,
      ts = (p.devices.filter fun e => decide (Delivered env.estimate h sid s (d.canStartDataTransfer sid) e.1 e.2)).map Prod.snd →
      (((ts ≠ [] → s.data.length ≤ 65535) ∧ ∀ q ∈ ts, env.alive q.handle = true) ↔
       (∀ k q, p.devices.get? k = some q → Gets h sid s k q → ¬Unseen env.estimate h sid s k q →
        env.alive k = true ∧ s.data.length ≤ 65535)) := by
    rintro ts rfl
    constructor
    · rintro ⟨h1, h2⟩ k q hq hg hu
      have hmem : q ∈ (p.devices.filter fun e => decide (Delivered env.estimate h sid s (d.canStartDataTransfer sid) e.1 e.2)).map Prod.snd :=
        List.mem_map.mpr ⟨(k, q), List.mem_filter.mpr ⟨AMap.mem_of_get? hq, decide_eq_true ((hsv k q).mpr ⟨hg, hu⟩)⟩, rfl⟩
      have := h2 q hmem
      rw [(hi.dev k q hq).1] at this
      exact ⟨this, h1 (List.ne_nil_of_mem hmem)⟩
    · intro h1
      have h2 : ∀ q ∈ (p.devices.filter fun e => decide (Delivered env.estimate h sid s (d.canStartDataTransfer sid) e.1 e.2)).map Prod.snd,
          env.alive q.handle = true ∧ s.data.length ≤ 65535 := by
        intro q hq
        obtain ⟨⟨k, q⟩, he, rfl⟩ := List.mem_map.mp hq
        obtain ⟨he, hdl⟩ := List.mem_filter.mp he
        have hq := AMap.get?_of_mem hi.devNodup he
        obtain ⟨hg, hu⟩ := (hsv k q).mp (of_decide_eq_true hdl)
        rw [(hi.dev k q hq).1]
        exact h1 k q hq hg hu
      refine ⟨fun hne => ?_, fun q hq => (h2 q hq).1⟩
      obtain ⟨q, hq⟩ := List.exists_mem_of_ne_nil _ hne
      exact (h2 q hq).2
  have hm : s.appConfig.deviceMacAddress = none → s.appConfig.dstMacAddress = [] := by
    obtain ⟨tr, hr⟩ := hp
    exact mac_first hr h d hd sid s hs
  have hdata : ∀ ts : List Device,
      ts = (p.devices.filter fun e => decide (Delivered env.estimate h sid s (d.canStartDataTransfer sid) e.1 e.2)).map Prod.snd →
      ((∃ o, Pica.dataSends env.alive sid s ts = .ok o) ↔
        (ts ≠ [] → s.data.length ≤ 65535) ∧ ∀ q ∈ ts, env.alive q.handle = true) := by
    rintro ts rfl
    by_cases hn : s.appConfig.deviceMacAddress = none
    · have hact : ¬Exchanges s .initiator := by
        intro hex
        have hmand := (((hi.dev h d hd).2.2.2.sess sid s hs).configured (.inr hex.1)).2
        unfold Device.hasMandatory at hmand
        simp [hn] at hmand
      have : (p.devices.filter fun e => decide (Delivered env.estimate h sid s (d.canStartDataTransfer sid) e.1 e.2)) = [] := by
        rw [List.filter_eq_nil_iff]
        intro e _ he
        exact hact ((hsv e.1 e.2).mp (of_decide_eq_true he)).1.2.1
      rw [this]
      exact ⟨fun _ => ⟨fun h => absurd rfl h, fun q hq => by cases hq⟩, fun _ => ⟨[], rfl⟩⟩
    · exact data_total hn
  have hen : View.of s.appConfig 0x0e ≠ some [0] ↔ s.isSessionInfoNtfEnabled = true := by
    rw [ne_eq, disable_iff]; unfold Session.isSessionInfoNtfEnabled; simp
  constructor
  · rintro ⟨⟨p', out⟩, hr⟩
    obtain ⟨d', s', ms, ms', ts, o, hd', hs', h1, h2, h3, h4⟩ := Pica.ranging_ok hr
    rw [hd] at hd'; cases hd'
    rw [hsess] at hs'; cases hs'
    rw [hh] at h1 h2
    obtain ⟨c2, ht⟩ := peer_ok (mem_handle hi) h2
    have hc := List.rel_append (anchor_ok h1) c2
    refine ⟨forall_short hc, (hts ts ht).mp ((hdata ts ht).mp ⟨o, h3⟩), fun he => ?_⟩
    rcases h4 with ⟨-, hsd, -, hlt, -⟩ | ⟨hdis, -⟩
    · obtain ⟨-, henc, hal⟩ := Pica.plain_sendUnwrap hsd
      have hlen : (ms ++ ms').length ≤ 255 := ntf_isSome.mp henc
      refine ⟨?_, hal, hlt⟩
      rw [← hc.length_eq] at hlen
      exact hlen
    · rw [hen.mp he] at hdis; cases hdis
  · rintro ⟨h1, h2, h3⟩
    have hact : ∀ e ∈ p.devices, ∀ t, e.2.sessions.get? sid = some t → t.state = sessionStateActive →
        t.appConfig.deviceMacAddress ≠ none := by
      intro e he t ht hta
      have hq := AMap.get?_of_mem hi.devNodup he
      have := ((hi.dev _ _ hq).2.2.2.sess sid t ht).configured (.inr hta)
      have hmand := this.2
      intro hn
      unfold Device.hasMandatory at hmand
      simp [hn] at hmand
    obtain ⟨ms, hms⟩ := anchor_total (est := env.estimate) (anchors := p.anchors) (h := h) (dst := s.appConfig.dstMacAddress)
      fun e he => h1 e (List.mem_append_left _ he)
    obtain ⟨⟨ms', ts⟩, hms'⟩ := peer_total (est := env.estimate) (h := h) (b := d.canStartDataTransfer sid) (mem_handle hi) hact hm
      fun e he => h1 e (List.mem_append_right _ he)
    obtain ⟨c2, ht⟩ := peer_ok (mem_handle hi) hms'
    have hc := List.rel_append (anchor_ok hms) c2
    obtain ⟨o, ho⟩ := (hdata ts ht).mpr ((hts ts ht).mpr h2)
    show ∃ x, p.ranging env h sid = .ok x
    unfold Pica.ranging
    simp only [hd, hsess, hh, hms, hms', ho, bind, Except.bind]
    by_cases he : s.isSessionInfoNtfEnabled = true
    · obtain ⟨hl, hal, hlt⟩ := h3 (hen.mpr he)
      have henc : (Packet.ntf (.sessionInfo s.sequenceNumber sid 0 0 (ms ++ ms') [])).encode.isSome = true := by
        refine ntf_isSome.mpr ?_
        show (ms ++ ms').length ≤ 255
        rw [← hc.length_eq]; exact hl
      rw [if_pos he]
      unfold Pica.sendUnwrap
      rw [if_neg (by simpa [← Option.isSome_iff_ne_none] using henc), if_neg (by simp [hal])]
      simp only
      rw [if_pos hlt]
      exact ⟨_, rfl⟩
    · rw [if_neg he]
      exact ⟨_, rfl⟩

/-! ### C35 -/

theorem book_reorder {p q : Pica} (hi : p.PInv) (hr : Pica.Reorder p q) (h : Nat) (sid : UInt32) :
    bookOf (q.devices.get? h) sid = bookOf (p.devices.get? h) sid := by
  rcases (Pica.reorder_dev hi hr).2.2.2 h with e | ⟨d, l, hd, hp, hq⟩
  · rw [e]
  · rw [hd, hq]
    show Option.map book (AMap.get? l sid) = Option.map book (AMap.get? d.sessions sid)
    rw [AMap.get?_perm (hi.dev h d hd).2.2.2.nodup hp]

theorem infoNumbers_append (h : Nat) (sid : UInt32) (a b : List Pica.Event) :
    infoNumbers h sid (a ++ b) = infoNumbers h sid a ++ infoNumbers h sid b := List.flatMap_append

/-- The history of a session splits at its creation and at its last round. -/
theorem book_history {p : Pica} {tr : List Pica.Event} (hr : Pica.Run .new tr p) (h : Nat) (sid : UInt32) :
    ∀ n b ty, bookOf (p.devices.get? h) sid = some (n, b, ty) →
      (∃ tr₁ ev tr₂, tr = tr₁ ++ ev :: tr₂ ∧ Creates h sid ev ∧ (∀ e ∈ tr₂, ¬Creates h sid e ∧ ¬Ends h sid e) ∧
        infoNumbers h sid tr₂ = List.range n.toNat) ∧
      (∃ tr₁ ev tr₂, tr = tr₁ ++ ev :: tr₂ ∧ (Creates h sid ev ∨ ev.command = .ranging h sid) ∧
        (∀ e ∈ tr₂, ¬Creates h sid e ∧ ¬Ends h sid e ∧ e.command ≠ .ranging h sid) ∧ Queued h sid tr₂ b) := by
  generalize hp₀ : Pica.new = p₀ at hr
  induction hr with
  | nil => subst hp₀; intro n b ty hb; cases hb
  | @reorder q r tr hrun hro ih =>
    have hi := Pica.reachable_inv ⟨tr, hp₀ ▸ hrun⟩
    intro n b ty hb
    rw [book_reorder hi hro] at hb
    exact ih n b ty hb
  | @cmd q r tr env c out hrun hs ih =>
    have hi := Pica.reachable_inv ⟨tr, hp₀ ▸ hrun⟩
    have hstep := book_step h sid hi hs
    intro n b ty hb
    rw [hb] at hstep
    generalize bookOf (q.devices.get? h) sid = o at hstep ih
    have keep : ∀ {n₀ b₀ ty₀ n'}, o = some (n₀, b₀, ty₀) → ¬Creates h sid ⟨env, c, out⟩ → ¬Ends h sid ⟨env, c, out⟩ →
        List.range n₀.toNat ++ infoNumbers h sid [⟨env, c, out⟩] = List.range n' →
        ∃ tr₁ ev tr₂, tr ++ [⟨env, c, out⟩] = tr₁ ++ ev :: tr₂ ∧ Creates h sid ev ∧ (∀ e ∈ tr₂, ¬Creates h sid e ∧ ¬Ends h sid e) ∧
          infoNumbers h sid tr₂ = List.range n' := by
      intro n₀ b₀ ty₀ n' ho hnc hne hn
      obtain ⟨⟨tr₁, ev, tr₂, rfl, h1, h2, h3⟩, -⟩ := ih _ _ _ ho
      refine ⟨tr₁, ev, tr₂ ++ [⟨env, c, out⟩], by simp, h1, ?_, ?_⟩
      · intro e he
        rcases List.mem_append.mp he with he | he
        · exact h2 e he
        · rw [List.mem_singleton.mp he]; exact ⟨hnc, hne⟩
      · rw [infoNumbers_append, h3, hn]
    have queue : ∀ {n₀ b₀ ty₀ b'}, o = some (n₀, b₀, ty₀) → ¬Creates h sid ⟨env, c, out⟩ → ¬Ends h sid ⟨env, c, out⟩ →
        c ≠ .ranging h sid → (∀ tr₂, Queued h sid tr₂ b₀ → Queued h sid (tr₂ ++ [⟨env, c, out⟩]) b') →
        ∃ tr₁ ev tr₂, tr ++ [⟨env, c, out⟩] = tr₁ ++ ev :: tr₂ ∧ (Creates h sid ev ∨ ev.command = .ranging h sid) ∧
          (∀ e ∈ tr₂, ¬Creates h sid e ∧ ¬Ends h sid e ∧ e.command ≠ .ranging h sid) ∧ Queued h sid tr₂ b' := by
      intro n₀ b₀ ty₀ b' ho hnc hne hnr hq
      obtain ⟨-, tr₁, ev, tr₂, rfl, h1, h2, h3⟩ := ih _ _ _ ho
      refine ⟨tr₁, ev, tr₂ ++ [⟨env, c, out⟩], by simp, h1, ?_, hq _ h3⟩
      intro e he
      rcases List.mem_append.mp he with he | he
      · exact h2 e he
      · rw [List.mem_singleton.mp he]; exact ⟨hnc, hne, hnr⟩
    cases hstep with
    | creates _ _ hcr hinfo _ =>
      exact ⟨⟨tr, _, [], rfl, hcr, by simp, rfl⟩, ⟨tr, _, [], rfl, .inl hcr, by simp, .nil⟩⟩
    | silent n b₀ ty hnc hne hcmd hinfo =>
      exact ⟨keep rfl hnc hne (by rw [hinfo, List.append_nil]), ⟨tr, _, [], rfl, .inr hcmd, by simp, .nil⟩⟩
    | info n b₀ ty hnc hne hcmd hinfo hlt =>
      refine ⟨keep rfl hnc hne ?_, ⟨tr, _, [], rfl, .inr hcmd, by simp, .nil⟩⟩
      rw [hinfo, ← List.range_succ, UInt32.toNat_add]
      congr 1
      exact (Nat.mod_eq_of_lt hlt).symm
    | queue n b c' ty hnc hne hnr hinfo hq =>
      exact ⟨keep rfl hnc hne (by rw [hinfo, List.append_nil]), queue rfl hnc hne hnr fun _ h => .data h hq⟩
    | same _ hnc hne hnr hinfo hnq =>
      exact ⟨keep rfl hnc hne (by rw [hinfo, List.append_nil]), queue rfl hnc hne hnr fun _ h => .other h hnq⟩

/-- C35: the SESSION_INFO_NTFs sent for a session since its last initialisation are numbered 0, 1, 2, … and the
ranging count is their number. -/
theorem C35_count (p : Pica) (tr : List Pica.Event) (hr : Pica.Run .new tr p) (h : Nat) (d : Device) (sid : UInt32)
    (s : Session) (hd : p.devices.get? h = some d) (hs : d.sessions.get? sid = some s) :
    ∃ tr₁ ev tr₂, tr = tr₁ ++ ev :: tr₂ ∧ Creates h sid ev ∧ (∀ e ∈ tr₂, ¬Creates h sid e ∧ ¬Ends h sid e) ∧
      infoNumbers h sid tr₂ = List.range s.sequenceNumber.toNat := by
  have hb : bookOf (p.devices.get? h) sid = some (s.sequenceNumber, s.data, s.sessionType) :=
    (book_def p h sid).mpr ⟨d, s, hd, hs, rfl, rfl, rfl⟩
  exact (book_history hr h sid _ _ _ hb).1

/-- C35: SESSION_GET_RANGING_COUNT answers the ranging count and changes nothing. -/
theorem C35_get_count (p : Pica) (env : Env) (h : Nat) (d : Device) (sid : UInt32) (hd : p.devices.get? h = some d)
    (hr : d.isReset = true) :
    Answers p env h (.sessionGetRangingCount sid)
      (match d.sessions.get? sid with
        | some s => .sessionGetRangingCount .ok s.sequenceNumber
        | none => .sessionGetRangingCount .errorSessionNotExist 0) d [] := by
  have hx : d.exec env.tid (.sessionGetRangingCount sid) = .ok (d,
      (match d.sessions.get? sid with
        | some s => .sessionGetRangingCount .ok s.sequenceNumber
        | none => .sessionGetRangingCount .errorSessionNotExist 0), []) := by
    show Except.ok (d.sessionGetRangingCount sid) = _
    unfold Device.sessionGetRangingCount Device.session
    cases d.sessions.get? sid <;> rfl
  refine step_cmd hd (.inl hr) hx ?_
  intro _
  cases d.sessions.get? sid <;> exact trivial

/-! ### C36 -/

/-- C36: the data queued for a session are those of the DATA_MESSAGE_SNDs acknowledged since the last round or,
if there was none, since the session was created, in order. -/
theorem C36_queue (p : Pica) (tr : List Pica.Event) (hr : Pica.Run .new tr p) (h : Nat) (d : Device) (sid : UInt32)
    (s : Session) (hd : p.devices.get? h = some d) (hs : d.sessions.get? sid = some s) :
    ∃ tr₁ ev tr₂, tr = tr₁ ++ ev :: tr₂ ∧ (Creates h sid ev ∨ ev.command = .ranging h sid) ∧
      (∀ e ∈ tr₂, ¬Creates h sid e ∧ ¬Ends h sid e ∧ e.command ≠ .ranging h sid) ∧ Queued h sid tr₂ s.data := by
  have hb : bookOf (p.devices.get? h) sid = some (s.sequenceNumber, s.data, s.sessionType) :=
    (book_def p h sid).mpr ⟨d, s, hd, hs, rfl, rfl, rfl⟩
  exact (book_history hr h sid _ _ _ hb).2

open Classical in
/-- C36: a round sends the queued data once to every other device that gets them, except those the sender would
range with but has no estimate of, sends no other host anything, and empties the queue. The exception makes this
partial, see `C36_false`. -/
theorem C36_round_partial (p p' : Pica) (hp : p.Reachable) (env : Env) (h : Nat) (d : Device) (sid : UInt32) (s : Session)
    (out : List Out) (hd : p.devices.get? h = some d) (hs : d.sessions.get? sid = some s)
    (hr : p.step env (.ranging h sid) = .ok (p', out)) :
    (∀ k, k ≠ h → if ∃ q, p.devices.get? k = some q ∧ Gets h sid s k q ∧ ¬Unseen env.estimate h sid s k q then
        ∃ mac, s.appConfig.deviceMacAddress = some mac ∧ sentTo k out = [.data ⟨sid, .ok, mac.toU64, 1, s.data⟩]
      else sentTo k out = []) ∧
    ∃ d' s', p'.devices.get? h = some d' ∧ d'.sessions.get? sid = some s' ∧ s'.data = [] := by
  obtain ⟨d', s', ms, o, hd', hs', hc, hsent, -, hself, hout⟩ := round_ok (Pica.reachable_inv hp) hr
  rw [hd] at hd'; cases hd'
  rw [hs] at hs'; cases hs'
  constructor
  · intro k hk
    have h1 := hsent k
    have h2 : sentTo k out = sentTo k o := by
      rcases hout with ⟨-, rfl, -⟩ | ⟨-, rfl, -⟩
      · rw [sentTo_append, sentTo_send, if_neg (Ne.symm hk), List.append_nil]
      · rfl
    rw [h2]
    unfold Served at h1
    split at h1
    · rename_i hsv
      rw [if_pos hsv]
      obtain ⟨mac, hm, h3⟩ := h1
      exact ⟨mac, hm, h3⟩
    · rename_i hsv
      rw [if_neg hsv]
      exact h1
  · rcases hout with ⟨-, -, -, rfl⟩ | ⟨-, -, rfl⟩
    · exact ⟨_, _, AMap.get?_insert_self .., AMap.get?_insert_self .., rfl⟩
    · exact ⟨_, _, AMap.get?_insert_self .., AMap.get?_insert_self .., rfl⟩

/-! ### C37 -/

/-- C37: a round changes nothing but the ranging count and the queued data of its session, and only sends packets,
to its own host and to the devices that get the data. -/
theorem C37_frame (p p' : Pica) (hp : p.Reachable) (env : Env) (h : Nat) (d : Device) (sid : UInt32) (s : Session)
    (out : List Out) (hd : p.devices.get? h = some d) (hs : d.sessions.get? sid = some s)
    (hr : p.step env (.ranging h sid) = .ok (p', out)) :
    (∃ n, p' = { p with devices := p.devices.insert h { d with
      sessions := d.sessions.insert sid { s with sequenceNumber := n, data := [] } } }) ∧
    ∀ x ∈ out, ∃ k pkt, x = .send k pkt ∧ (k = h ∨ ∃ q, p.devices.get? k = some q ∧ Gets h sid s k q) := by
  obtain ⟨d', s', ms, o, hd', hs', hc, hsent, hsend, hself, hout⟩ := round_ok (Pica.reachable_inv hp) hr
  rw [hd] at hd'; cases hd'
  rw [hs] at hs'; cases hs'
  have ho : ∀ x ∈ o, ∃ k pkt, x = .send k pkt ∧ (k = h ∨ ∃ q, p.devices.get? k = some q ∧ Gets h sid s k q) := by
    intro x hx
    obtain ⟨k, pkt, rfl⟩ := hsend x hx
    refine ⟨k, pkt, rfl, .inr ?_⟩
    have h1 := hsent k
    split at h1
    · rename_i hsv
      obtain ⟨q, hq, hg, -⟩ := hsv
      exact ⟨q, hq, hg⟩
    · have : pkt ∈ sentTo k o := List.mem_filterMap.mpr ⟨_, hx, by simp⟩
      rw [h1] at this; cases this
  rcases hout with ⟨-, rfl, -, rfl⟩ | ⟨-, rfl, rfl⟩
  · refine ⟨⟨_, rfl⟩, ?_⟩
    intro x hx
    rcases List.mem_append.mp hx with hx | hx
    · exact ho x hx
    · rw [List.mem_singleton.mp hx]; exact ⟨h, _, rfl, .inl rfl⟩
  · exact ⟨⟨s.sequenceNumber, rfl⟩, ho⟩

/-! ### C38 -/

/-- The in-band stop for this address stops the session. -/
def StoppedBy (mac : MacAddress) (s : Session) : Prop :=
  s.state = sessionStateActive ∧ s.appConfig.deviceMacAddress = some mac

/-- What an in-band stop does to one device. -/
theorem stopInBand_eq {q : Device} (hi : DevInv q) (mac : MacAddress) (sid : UInt32) :
    (∃ s t, q.sessions.get? sid = some s ∧ StoppedBy mac s ∧ s.rangingTask = some t ∧ 0 < q.nActive ∧
      q.stopInBand mac sid = ({ q with
          sessions := q.sessions.insert sid { s with state := sessionStateIdle, rangingTask := none }
          nActive := q.nActive - 1
          state := if q.nActive = 1 then .deviceStateReady else .deviceStateActive },
        [.abortTimer t, .notify 1 (.sessionStatus sid sessionStateIdle 0x05)] ++
          if q.nActive = 1 then [.notify 5 (.coreDeviceStatus .deviceStateReady)] else [])) ∨
    (∀ s, q.sessions.get? sid = some s → ¬StoppedBy mac s) ∧ q.stopInBand mac sid = (q, []) := by
  unfold Device.stopInBand Device.session
  cases hs : q.sessions.get? sid with
  | none => exact .inr ⟨(by intro s h; cases h), rfl⟩
  | some s =>
    by_cases hst : StoppedBy mac s
    · left
      have hinv := hi.sess sid s hs
      cases ht : s.rangingTask with
      | none => exact absurd ht (hinv.task hst.1)
      | some t =>
        have hpos : 0 < q.nActive := by
          have h1 := hi.count
          have h2 : 0 < activeCount q := by
            unfold activeCount
            exact List.length_pos_of_mem (List.mem_filter.mpr ⟨AMap.mem_of_get? hs, decide_eq_true hst.1⟩)
          omega
        have hact : q.state = .deviceStateActive := by rw [hi.state, if_neg (by omega)]
        refine ⟨s, t, rfl, hst, ht, hpos, ?_⟩
        simp only [hst.2, ne_eq, not_true_eq_false, if_false, hst.1, if_true]
        unfold Session.stopRangingTask
        rw [ht]
        unfold Session.setState
        simp only [hst.1]
        rw [if_neg (show ¬sessionStateIdle = sessionStateActive by decide), hinv.id]
        by_cases h1 : q.nActive = 1
        · have h0 : q.nActive - 1 = 0 := by omega
          rw [if_pos h0, if_pos h1, if_pos h1]
          unfold Device.setState
          rw [if_neg (by show _ ≠ q.state; rw [hact]; decide)]
          rfl
        · have h0 : ¬q.nActive - 1 = 0 := by omega
          rw [if_neg h0, if_neg h1, if_neg h1]
          simp only [List.append_nil, ← hact]
          rfl
    · refine .inr ⟨(by intro s' h; cases h; exact hst), ?_⟩
      dsimp only
      split
      · rfl
      · rename_i h1
        split
        · rename_i h2
          exact absurd ⟨h2, not_not.mp h1⟩ hst
        · rfl

/-- C38: an in-band stop for session `sid` of the device with address `mac` keeps counter, anchors and handles. A device
whose session `sid` is ACTIVE with that address has this session set to IDLE without timer, loses one active
session and becomes READY if it was the last one; its timer is aborted and the changes are notified. Every other
device stays as it is and does nothing. -/
theorem C38_stop (p : Pica) (hp : p.Reachable) (env : Env) (mac : MacAddress) (sid : UInt32) :
    ∃ p' out, p.step env (.stopRanging mac sid) = .ok (p', out) ∧ p'.counter = p.counter ∧ p'.anchors = p.anchors ∧
      (∀ x ∈ out, ∃ k e, x = .effect k e) ∧
      ∀ k, (p.devices.get? k = none ∧ p'.devices.get? k = none ∧ effectsOf k out = []) ∨
        ∃ q q', p.devices.get? k = some q ∧ p'.devices.get? k = some q' ∧
          ((∃ s t, q.sessions.get? sid = some s ∧ StoppedBy mac s ∧ s.rangingTask = some t ∧ 0 < q.nActive ∧
              q' = { q with
                sessions := q.sessions.insert sid { s with state := sessionStateIdle, rangingTask := none }
                nActive := q.nActive - 1
                state := if q.nActive = 1 then .deviceStateReady else .deviceStateActive } ∧
              effectsOf k out = [.abortTimer t, .notify 1 (.sessionStatus sid sessionStateIdle 0x05)] ++
                if q.nActive = 1 then [.notify 5 (.coreDeviceStatus .deviceStateReady)] else []) ∨
           ((∀ s, q.sessions.get? sid = some s → ¬StoppedBy mac s) ∧ q' = q ∧ effectsOf k out = [])) := by
  have hi := Pica.reachable_inv hp
  refine ⟨(p.stopControleeRanging mac sid).1, (p.stopControleeRanging mac sid).2, rfl, rfl, rfl, ?_, ?_⟩
  · intro x hx
    obtain ⟨e, -, he⟩ := List.mem_flatMap.mp hx
    obtain ⟨z, -, rfl⟩ := List.mem_map.mp he
    exact ⟨_, _, rfl⟩
  · intro k
    have h1 : AMap.get? (p.stopControleeRanging mac sid).1.devices k =
        (p.devices.get? k).map fun d => (d.stopInBand mac sid).1 :=
      Pica.get?_map_values p.devices (fun d => (d.stopInBand mac sid).1) k
    have h2 : effectsOf k (p.stopControleeRanging mac sid).2 = ((p.devices.get? k).map fun d => (d.stopInBand mac sid).2).getD [] :=
      Pica.effectsOf_flatMap hi.devNodup (fun d => (d.stopInBand mac sid).2) k
    rw [h1, h2]
    cases hq : p.devices.get? k with
    | none => exact .inl ⟨rfl, rfl, rfl⟩
    | some q =>
      refine .inr ⟨q, _, rfl, rfl, ?_⟩
      obtain ⟨-, -, -, hdi⟩ := hi.dev k q hq
      rcases stopInBand_eq hdi mac sid with ⟨s, t, hs, hst, ht, hn, he⟩ | ⟨hno, he⟩
      · refine .inl ⟨s, t, hs, hst, ht, hn, ?_, ?_⟩
        · show (q.stopInBand mac sid).1 = _; rw [he]
        · rw [Option.map_some, Option.getD_some, he]
      · refine .inr ⟨hno, ?_, ?_⟩
        · show (q.stopInBand mac sid).1 = _; rw [he]
        · rw [Option.map_some, Option.getD_some, he]

/-- C38: repeating an in-band stop changes nothing. -/
theorem C38_again (p p' : Pica) (hp : p.Reachable) (env env' : Env) (mac : MacAddress) (sid : UInt32) (out : List Out)
    (hs : p.step env (.stopRanging mac sid) = .ok (p', out)) : p'.step env' (.stopRanging mac sid) = .ok (p', []) := by
  have hi := Pica.reachable_inv hp
  cases hs
  show Except.ok (Pica.stopControleeRanging _ mac sid) = _
  have hfix : ∀ e ∈ p.devices, Device.stopInBand (e.2.stopInBand mac sid).1 mac sid = ((e.2.stopInBand mac sid).1, []) := by
    intro e he
    obtain ⟨-, -, -, hdi⟩ := hi.dev e.1 e.2 (AMap.get?_of_mem hi.devNodup he)
    rcases stopInBand_eq hdi mac sid with ⟨s, t, hsx, hst, ht, hn, he⟩ | ⟨hno, he⟩
    · rw [he]
      dsimp only
      unfold Device.stopInBand Device.session
      rw [AMap.get?_insert_self]
      dsimp only
      split
      · rfl
      · rfl
    · rw [he]; exact he
  unfold Pica.stopControleeRanging
  dsimp only
  congr 2
  · congr 1
    rw [List.map_map]
    apply List.map_congr_left
    intro e he
    show (e.1, (Device.stopInBand (e.2.stopInBand mac sid).1 mac sid).1) = _
    rw [hfix e he]
  · rw [List.flatMap_map, List.flatMap_eq_nil_iff]
    intro e he
    show List.map _ (Device.stopInBand (e.2.stopInBand mac sid).1 mac sid).2 = []
    rw [hfix e he]; rfl

/-! ### C36 as stated is false -/

/-- DATA_MESSAGE_SND of two bytes for session 7. -/
def sendData : Bytes := [0x01, 0, 0, 0, 7, 0, 0, 0, 1, 2, 3, 4, 5, 6, 7, 8, 0, 0, 2, 0, 0x55, 0x66]

/-- An estimator that knows nobody. -/
def blind : Env := { Ex.env with estimate := fun _ _ => none }

/-- Two devices ranging with each other, with data queued. -/
def queued : List (Env × Command) := Ex.twoActive ++ [Ex.pkt 0 sendData]

theorem queued_ok : (Ex.play .new queued).isOk = true := by decide +kernel

/-- C36 fails: the second device gets the data of the first, but a round in which the estimator knows no distance
between the two sends it nothing, and the data are gone. -/
theorem C36_false : ∃ (p p' : Pica) (env : Env) (d q d' : Device) (s s' : Session) (out : List Out), p.Reachable ∧
    p.devices.get? 0 = some d ∧ d.sessions.get? 7 = some s ∧ s.data = [0x55, 0x66] ∧
    p.devices.get? 1 = some q ∧ Gets 0 7 s 1 q ∧ p.step env (.ranging 0 7) = .ok (p', out) ∧ sentTo 1 out = [] ∧
    p'.devices.get? 0 = some d' ∧ d'.sessions.get? 7 = some s' ∧ s'.data = [] := by
  obtain ⟨d, s, hd, hs, ho⟩ := Ex.find (p := Ex.after queued) (h := 0) (sid := 7)
    (f := fun _ s => (s.data, decide (Exchanges s .initiator))) (b := ([0x55, 0x66], true)) (by decide +kernel)
  obtain ⟨q, t, hq, ht, ho'⟩ := Ex.find (p := Ex.after queued) (h := 1) (sid := 7)
    (f := fun _ s => decide (Exchanges s .responder)) (b := true) (by decide +kernel)
  obtain ⟨⟨p', out⟩, hp', hf⟩ := Ex.exists_ok (x := (Ex.after queued).step blind (.ranging 0 7))
    (f := fun x => (sentTo 1 x.2, (x.1.devices.get? 0).bind fun d => (d.sessions.get? 7).map Session.data))
    (b := ([], some [])) (by decide +kernel)
  have h1 := congrArg Prod.fst hf
  have h2 := congrArg Prod.snd hf
  obtain ⟨d', s', hd', hs', hdata⟩ := Ex.find (p := p') (f := fun _ s => s.data) h2
  exact ⟨_, p', blind, d, q, d', s, s', out, Ex.after_reachable queued queued_ok, hd, hs, congrArg Prod.fst ho, hq,
    ⟨by decide, of_decide_eq_true (congrArg Prod.snd ho), t, ht, of_decide_eq_true ho'⟩, hp', h1, hd', hs', hdata⟩

/-! ### Examples -/

/-- C33, C34, C57: in the example two devices and an anchor range; the first measures the anchor and the second device,
the second measures the first. -/
example : ∃ p : Pica, p.Reachable ∧ ∃ d s e t, p.devices.get? 0 = some d ∧ d.sessions.get? 7 = some s ∧
    p.devices.get? 1 = some e ∧ e.sessions.get? 7 = some t ∧ s.state = sessionStateActive ∧ t.state = sessionStateActive ∧
    peers p Ex.env.estimate 0 7 s = [⟨2, .short ⟨[0, 0xb1], rfl⟩, ⟨102, 5, 7⟩, ⟨120, 5, 7⟩⟩,
      ⟨1, .short ⟨[0, 0xb1], rfl⟩, ⟨101, 5, 7⟩, ⟨110, 5, 7⟩⟩] ∧
    peers p Ex.env.estimate 1 7 t = [⟨0, .short ⟨[0, 0xa0], rfl⟩, ⟨110, 5, 7⟩, ⟨101, 5, 7⟩⟩] ∧
    ∃ x, p.step Ex.env (.ranging 0 7) = .ok x := by
  obtain ⟨d, s, hd, hs, ho⟩ := Ex.find (p := Ex.after queued) (h := 0) (sid := 7)
    (f := fun _ s => (decide (s.state = sessionStateActive), peers (Ex.after queued) Ex.env.estimate 0 7 s))
    (b := (true, [⟨2, .short ⟨[0, 0xb1], rfl⟩, ⟨102, 5, 7⟩, ⟨120, 5, 7⟩⟩,
      ⟨1, .short ⟨[0, 0xb1], rfl⟩, ⟨101, 5, 7⟩, ⟨110, 5, 7⟩⟩])) (by decide +kernel)
  obtain ⟨e, t, he, ht, ho'⟩ := Ex.find (p := Ex.after queued) (h := 1) (sid := 7)
    (f := fun _ s => (decide (s.state = sessionStateActive), peers (Ex.after queued) Ex.env.estimate 1 7 s))
    (b := (true, [⟨0, .short ⟨[0, 0xa0], rfl⟩, ⟨110, 5, 7⟩, ⟨101, 5, 7⟩⟩])) (by decide +kernel)
  obtain ⟨x, hx, -⟩ := Ex.exists_ok (x := (Ex.after queued).step Ex.env (.ranging 0 7)) (f := fun _ => ()) (b := ())
    (by decide +kernel)
  exact ⟨_, Ex.after_reachable queued queued_ok, d, s, e, t, hd, hs, he, ht, of_decide_eq_true (congrArg Prod.fst ho),
    of_decide_eq_true (congrArg Prod.fst ho'), congrArg Prod.snd ho, congrArg Prod.snd ho', x, hx⟩

/-- C35, C36, C37: with data queued, three rounds of which the last one is the second device's: the first host got the
numbers 0 and 1, the second host the data once and then no data, and the queue is empty. -/
def rounds : List (Env × Command) :=
  queued ++ [(Ex.env, .ranging 0 7), (Ex.env, .ranging 0 7), (Ex.env, .ranging 1 7)]

example : ∃ p tr, Pica.Run .new tr p ∧ infoNumbers 0 7 tr = [0, 1] ∧ infoNumbers 1 7 tr = [0] ∧
    (∃ d s, p.devices.get? 0 = some d ∧ d.sessions.get? 7 = some s ∧ s.sequenceNumber = 2 ∧ s.data = []) ∧
    tr.flatMap (fun ev => (sentTo 1 ev.out).filterMap fun | .data m => some m.applicationData | _ => none) =
      [[0x55, 0x66], []] := by
  obtain ⟨d, s, hd, hs, ho⟩ := Ex.find (p := Ex.after rounds) (h := 0) (sid := 7)
    (f := fun _ s => (s.sequenceNumber, s.data)) (b := (2, [])) (by decide +kernel)
  exact ⟨_, _, Ex.after_run rounds (by decide +kernel), (by decide +kernel), (by decide +kernel),
    ⟨d, s, hd, hs, congrArg Prod.fst ho, congrArg Prod.snd ho⟩, by decide +kernel⟩

/-- C38: an in-band stop for 00:b1 stops the session of the second device. -/
example : ∃ p : Pica, p.Reachable ∧ ∃ d s, p.devices.get? 1 = some d ∧ d.sessions.get? 7 = some s ∧
    StoppedBy (.short ⟨[0, 0xb1], rfl⟩) s := by
  obtain ⟨d, s, hd, hs, ho⟩ := Ex.find (p := Ex.after queued) (h := 1) (sid := 7)
    (f := fun _ s => decide (s.state = sessionStateActive ∧ s.appConfig.deviceMacAddress = some (.short ⟨[0, 0xb1], rfl⟩)))
    (b := true) (by decide +kernel)
  have hst := of_decide_eq_true ho
  exact ⟨_, Ex.after_reachable queued queued_ok, d, s, hd, hs, hst⟩

end Pica.Props

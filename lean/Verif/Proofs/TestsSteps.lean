import Verif.Proofs.TestsGood
import Verif.Props.Ranging
/-! The steps of a host of the tests. -/

set_option linter.dupNamespace false

namespace Pica.Tests
open Spec SessionState

variable {late lag t h : Nat} {rest : List Statement} {s : Test} {H : Host} {g : Stage}

/-! ### Each kind of step -/

theorem napsOf_cons {n : Ntf} {due : Nat} {l naps : List (Nat × Ntf × Nat)} (hp : naps.Perm ((h, n, due) :: l)) :
    (Props.napsOf h naps).Perm ((due, n) :: Props.napsOf h l) := by
  have := hp.filterMap fun x : Nat × Ntf × Nat => if x.1 = h then some (x.2.2, x.2.1) else none
  simpa [Props.napsOf] using this

/-- A delayed notification arrives. -/
theorem At.note {n : Ntf} {m : Nat} {ns : List (Nat × Ntf)} {l : List (Nat × Ntf × Nat)} {sys : System} {x : Expected}
    (ha : At late lag s h H g) (hl : (Props.napsOf h l).Perm ns)
    (hx : g.rest = .expect x m :: rest) (hr : Reads x (.ntf n)) (ht : s.clock.now ≤ t)
    (hsys : ∃ z, sys = { s.clock.sys with ntfs := z })
    (hd : t ≤ Stage.deadline late lag { g with naps := ns, lo := t, rest := rest }) :
    At late lag ⟨{ s.clock with sys := sys, now := t, naps := l }, s.stamps, post t h (.ntf n) s.hosts⟩ h
      (H.hear t (.ntf n)) { g with naps := ns, lo := t, rest := rest } := by
  obtain ⟨z, rfl⟩ := hsys
  have hw := ha.waits
  rw [hx] at hw
  exact ⟨ha.dev, ha.queue, hl, ha.timer, ha.conn, post_self ha.host, hw.arrive hr ht, Nat.le_refl _, hd⟩

/-- A command is sent. -/
theorem At.sends {c : Message} {todo : List Statement} {b : Bytes} (ha : At late lag s h H g)
    (hlen : s.stamps.length = s.clock.sys.queue.length) (hq : g.queue = []) (ht : H.todo = .send c :: todo)
    (hx : g.rest = .send c :: rest) :
    At late lag ⟨{ s.clock with sys := { s.clock.sys with queue := s.clock.sys.queue ++ [.uciPacket h b] }, now := t },
      s.stamps ++ [t], s.hosts.insert h { H with todo := todo, since := t, able := t }⟩ h { H with todo := todo, since := t, able := t }
      { g with queue := [(t, .uciPacket h b)], lo := t, rest := rest } := by
  obtain ⟨h1, -, -, h2⟩ := ha.waits.send (t := t) ht
  have e : rest = todo := by
    rw [hx] at h1
    exact (List.cons.inj h1).2
  refine ⟨ha.dev, ?_, ha.naps, ha.timer, ha.conn, AMap.get?_insert_self _ _ _, by rw [e]; exact h2, Nat.le_refl _, Nat.le_add_right _ _⟩
  show pending h (s.stamps ++ [t]) (s.clock.sys.queue ++ [.uciPacket h b]) = _
  rw [pending_push hlen, ha.queue, hq, if_pos (show about (.uciPacket h b) = some h from rfl), List.nil_append]

/-- A packet is read. -/
theorem At.gets {x : Expected} {n a : Nat} {todo : List Statement} {b : Bytes} {ys : List (Nat × Bytes)}
    (ha : At late lag s h H g) (ht : H.todo = .expect x n :: todo) (hi : H.box x = (a, b) :: ys)
    (hin : InTime late lag t s) (hd : t ≤ g.deadline late lag) :
    accepts x b = true ∧
    At late lag ⟨{ s.clock with now := t }, s.stamps,
      s.hosts.insert h { H.take x ys with todo := todo, since := t, able := max H.able a }⟩ h
      { H.take x ys with todo := todo, since := t, able := max H.able a } g := by
  have hq := (hin.hosts h H ha.host ha.waits.ok).2 x n todo ht (a, b) ys hi
  have hlo := Nat.le_trans ha.lo hin.now
  obtain ⟨h1, h2⟩ := ha.waits.get ht hi hlo hin.now hq
  exact ⟨h1, ha.dev, ha.queue, ha.naps, ha.timer, ha.conn, AMap.get?_insert_self _ _ _, h2, hlo, hd⟩

/-- The ranging task sends its command. -/
theorem At.tick {k : Timer} {i due : Nat} (ha : At late lag s h H g) (hlen : s.stamps.length = s.clock.sys.queue.length)
    (hk : k ∈ s.clock.sys.timers) (hh : k.device = h) (hw : s.clock.wakes.get? k.id = some (i, due)) (hq : g.queue = [])
    (hin : InTime late lag t s) :
    g.timer = some (k.id, due) ∧
    At late lag ⟨{ s.clock with
        sys := { s.clock.sys with queue := s.clock.sys.queue ++ [.ranging k.device k.session] }, now := t,
        wakes := if k.aborted then s.clock.wakes.erase k.id else s.clock.wakes.insert k.id (i, t + i) },
      s.stamps ++ [t], s.hosts⟩ h H { g with queue := [(t, .ranging h 0)], timer := some (k.id, t + 1000000) } := by
  obtain ⟨e1, e2, e3, e4⟩ := ha.timer.1 k hk hh i due hw
  subst e2
  refine ⟨e1, ha.dev, ?_, ha.naps, ⟨?_, ?_⟩, ha.conn, ha.host, ha.waits.mono hin.now, Nat.le_trans ha.lo hin.now, Nat.le_add_right _ _⟩
  · show pending h (s.stamps ++ [t]) (s.clock.sys.queue ++ [.ranging k.device k.session]) = _
    rw [pending_push hlen, ha.queue, hq, hh, e3, if_pos (show about (.ranging h 0) = some h from rfl), List.nil_append]
  · intro k' hk' hh' i' due' hw'
    have hw'' : (if k.aborted then s.clock.wakes.erase k.id else s.clock.wakes.insert k.id (1000000, t + 1000000)).get? k'.id = some (i', due') := hw'
    rw [e4, if_neg (by simp), AMap.get?_insert] at hw''
    split at hw''
    · rename_i e
      cases hw''
      obtain ⟨-, -, g3, g4⟩ := ha.timer.1 k' hk' hh' _ _ (by rw [← e]; exact hw)
      exact ⟨by rw [e], rfl, g3, g4⟩
    · rename_i e
      obtain ⟨g1, -, -, -⟩ := ha.timer.1 k' hk' hh' _ _ hw''
      rw [e1] at g1
      exact absurd (congrArg Prod.fst (Option.some.inj g1)) e
  · intro id due' e
    cases e
    refine ⟨(ha.timer.2 _ _ e1).1, ?_⟩
    show (if k.aborted then s.clock.wakes.erase k.id else s.clock.wakes.insert k.id (1000000, t + 1000000)).get? k.id = _
    rw [e4, if_neg (by simp), AMap.get?_insert_self]

/-- A command of the host is processed. -/
theorem At.after {c : Command} {q : List Command} {sc : Nat → List Statement} {p : Pica} {out : List Out} {a lo : Nat}
    {d : Device} {tm : Option (Nat × Nat)} {ns : List (Nat × Ntf)} {H' : Host}
    (ha : At late lag s h H g) (hlen : s.stamps.length = s.clock.sys.queue.length) (hq : s.clock.sys.queue = c :: q)
    (hg : g.queue = [(a, c)]) (hd : p.devices.get? h = some d)
    (hconn : ∀ S : System, (out.foldl System.apply S).conns = S.conns)
    (hhost : (out.foldl (hears sc t) s.hosts).get? h = some H') (hw : Waits lag t H' lo rest) (hlo : lo ≤ t)
    (hnaps : Props.napsOf h (out.filterMap (Clock.nap t)) = ns)
    (htimer : Alarm (processed sc t s p q out).clock h tm)
    (hdl : t ≤ Stage.deadline late lag { dev := d, queue := [], naps := g.naps ++ ns, timer := tm, lo := lo, rest := rest }) :
    At late lag (processed sc t s p q out) h H'
      { dev := d, queue := [], naps := g.naps ++ ns, timer := tm, lo := lo, rest := rest } := by
  obtain ⟨f1, f2, -, -⟩ := System.applyAll_frame out { s.clock.sys with pica := p, queue := q, spawned := s.clock.sys.spawned + 1 }
  have hab : about c = some h := (mem_pending (by rw [ha.queue, hg]; exact List.mem_cons_self)).2.2
  refine ⟨?_, ?_, ?_, htimer, ?_, hhost, hw, hlo, hdl⟩
  · show (out.foldl System.apply _).pica.devices.get? h = _
    rw [f1]; exact hd
  · show pending h s.stamps.tail (out.foldl System.apply _).queue = _
    rw [f2]
    have := ha.queue
    rw [hq, hg] at this
    cases hst : s.stamps with
    | nil => rw [hst, hq] at hlen; cases hlen
    | cons b as =>
      rw [hst, pending_pop, if_pos hab] at this
      exact (List.cons.inj this).2
  · show (Props.napsOf h (s.clock.naps ++ out.filterMap (Clock.nap t))).Perm _
    unfold Props.napsOf at hnaps ⊢
    rw [List.filterMap_append, hnaps]
    exact ha.naps.append_right _
  · show (out.foldl System.apply _).conns.get? h = _
    rw [hconn]; exact ha.conn

/-- A command of the host is processed and answered. -/
theorem At.answer {c : Command} {q : List Command} {sc : Nat → List Statement} {p : Pica} {out : List Out} {a n : Nat} {x : Expected} {pkt : Packet}
    {d : Device} {tm : Option (Nat × Nat)} {ns : List (Nat × Ntf)}
    (ha : At late lag s h H g) (hlen : s.stamps.length = s.clock.sys.queue.length) (hq : s.clock.sys.queue = c :: q)
    (hg : g.queue = [(a, c)]) (hd : p.devices.get? h = some d) (hx : g.rest = .expect x n :: rest)
    (hr : Reads x pkt) (hin : InTime late lag t s)
    (hconn : ∀ S : System, (out.foldl System.apply S).conns = S.conns)
    (hhosts : out.foldl (hears sc t) s.hosts = post t h pkt s.hosts)
    (hnaps : Props.napsOf h (out.filterMap (Clock.nap t)) = ns)
    (htimer : Alarm (processed sc t s p q out).clock h tm)
    (hdl : t ≤ Stage.deadline late lag { dev := d, queue := [], naps := g.naps ++ ns, timer := tm, lo := t, rest := rest }) :
    At late lag (processed sc t s p q out) h (H.hear t pkt)
      { dev := d, queue := [], naps := g.naps ++ ns, timer := tm, lo := t, rest := rest } := by
  have hw := ha.waits
  rw [hx] at hw
  exact ha.after hlen hq hg hd hconn (by rw [hhosts]; exact post_self ha.host) (hw.arrive hr hin.now) (Nat.le_refl _) hnaps htimer hdl

/-! ### Rounds -/

/-- The emulator with sessions like those of the tests. -/
structure Fine (p : Pica) : Prop where
  sess : ∀ h d sid x, p.devices.get? h = some d → d.sessions.get? sid = some x →
    x.appConfig.Tame ∧ x.data.length ≤ 65535 ∧ x.sequenceNumber.toNat ≤ 2
  devs : p.devices.length ≤ 247

/-- A round does not panic. -/
theorem Fine.round {p : Pica} (hp : p.Reachable) (hc : Fine p) (env : Env)
    {sid : UInt32} {d : Device} {x : Session} (hd : p.devices.get? h = some d) (hs : d.sessions.get? sid = some x)
    (hal : env.alive h = true)
    (hact : ∀ k q t, p.devices.get? k = some q → q.sessions.get? sid = some t → t.state = sessionStateActive → env.alive k = true) :
    ∃ x, p.step env (.ranging h sid) = .ok x := by
  obtain ⟨c1, c2, c3⟩ := hc.sess h d sid x hd hs
  have hi := Pica.reachable_inv hp
  rw [Props.C57_round_survives p hp env h d sid x hd hs]
  refine ⟨?_, ?_, fun _ => ⟨?_, hal, by omega⟩⟩
  · intro e he
    rcases List.mem_append.mp he with he | he
    · obtain ⟨m, hm, hme⟩ := List.mem_filterMap.mp he
      obtain ⟨a, -, hme⟩ := Option.bind_eq_some_iff.mp hme
      obtain ⟨y, -, rfl⟩ := Option.map_eq_some_iff.mp hme
      exact c1.dst m hm
    · obtain ⟨⟨k, q⟩, hkq, hme⟩ := List.mem_filterMap.mp he
      obtain ⟨t, ht, hme⟩ := Option.bind_eq_some_iff.mp hme
      split at hme
      · obtain ⟨m, hm, hme⟩ := Option.bind_eq_some_iff.mp hme
        obtain ⟨y, -, rfl⟩ := Option.map_eq_some_iff.mp hme
        exact (hc.sess k q sid t (AMap.get?_of_mem hi.devNodup hkq) ht).1.mac m hm
      · cases hme
  · rintro k q hk ⟨-, -, t, ht, hex⟩ -
    exact ⟨hact k q t hk ht hex.1, c2⟩
  · unfold peers
    rw [List.length_append]
    have h1 := List.length_filterMap_le (anchorPeer env.estimate p.anchors h) x.appConfig.dstMacAddress
    have h2 := List.length_filterMap_le (fun e : Nat × Device => devicePeer env.estimate h sid x e.1 e.2) p.devices
    have h3 := c1.small.1
    have h4 := hc.devs
    omega

/-- The data a round delivers. -/
def parcel (p : Plan) (data : Bytes) : DataMessageRcv := ⟨0, .ok, (MacAddress.short p.mac).toU64, 1, data⟩

/-- What is measured has status OK. -/
theorem carried {es : List Peer} {ms : List Measurement} (h : List.Forall₂ Spec.Carries es ms) : ∀ x ∈ ms, x.status = .ok := by
  induction h with
  | nil => intro x hx; cases hx
  | cons he _ ih =>
    intro x hx
    rcases List.mem_cons.mp hx with rfl | hx
    · exact he.2.1
    · exact ih x hx

open Classical in
/-- A round of a test. -/
theorem round_ok {q : Pica} (hr : q.Reachable) {env : Env} {p : Plan} {seq : UInt32} {data : Bytes} {k : Nat}
    (hd : q.devices.get? h = some (busy p h seq data k))
    (hs : ∃ y, q.step env (.ranging h 0) = .ok y) :
    ∃ ms out, q.step env (.ranging h 0) = .ok ({ q with devices := q.devices.insert h (busy p h (seq + 1) [] k) }, out) ∧
      (Packet.ntf (.sessionInfo seq 0 0 0 ms [])).encode.isSome = true ∧ (∀ x ∈ ms, x.status = .ok) ∧
      (∀ x ∈ out, ∃ k pkt, x = .send k pkt) ∧ Spec.sentTo h out = [.ntf (.sessionInfo seq 0 0 0 ms [])] ∧
      ∀ k', k' ≠ h → if ∃ q', q.devices.get? k' = some q' ∧
          Gets h 0 (sess h p.type sessionStateActive seq data p.config (some k)) k' q' ∧
          ¬Unseen env.estimate h 0 (sess h p.type sessionStateActive seq data p.config (some k)) k' q' then
        Spec.sentTo k' out = [.data (parcel p data)] else Spec.sentTo k' out = [] := by
  obtain ⟨⟨q', out⟩, hs⟩ := hs
  obtain ⟨c1, -⟩ := Props.C36_round_partial q q' hr env h _ 0 (sess h p.type sessionStateActive seq data p.config (some k)) out hd rfl hs
  obtain ⟨d, x, ms, o, h1, h2, h3, -, h4, h5, h6⟩ := Pica.round_ok (Pica.reachable_inv hr) (show q.ranging env h 0 = .ok (q', out) from hs)
  rw [hd] at h1
  cases h1
  cases h2
  rcases h6 with ⟨-, rfl, -, rfl⟩ | ⟨g1, -⟩
  · obtain ⟨d', x', ms₁, ms₂, ts, o₁, g1, g2, -, -, -, g6⟩ := Pica.ranging_ok (show q.ranging env h 0 = .ok (_, _) from hs)
    rw [hd] at g1
    cases g1
    cases g2
    refine ⟨ms, _, hs, ?_, carried h3, ?_, ?_, ?_⟩
    · rcases g6 with ⟨-, g7, g8, -⟩ | ⟨g7, -⟩
      · have e : Out.send h (.ntf (.sessionInfo seq 0 0 0 ms [])) = Out.send h (.ntf (.sessionInfo seq 0 0 0 (ms₁ ++ ms₂) [])) :=
          (List.append_inj' g8 rfl).2 |> List.singleton_inj.mp
        have e' : ms = ms₁ ++ ms₂ := by injection e with _ e; injection e with e; injection e
        rw [e']
        unfold Pica.sendUnwrap at g7
        split at g7
        · cases g7
        · rename_i hn
          cases he : (Packet.ntf (.sessionInfo seq 0 0 0 (ms₁ ++ ms₂) [])).encode with
          | none => exact absurd (by rw [show (sess h p.type sessionStateActive seq data p.config (some k)).sequenceNumber = seq from rfl, he]; rfl) hn
          | some z => rfl
      · cases g7
    · intro y hy
      rcases List.mem_append.mp hy with hy | hy
      · exact h4 y hy
      · exact ⟨_, _, List.mem_singleton.mp hy⟩
    · rw [sentTo_append, h5, List.nil_append]
      show Spec.sentTo h [Out.send h (.ntf (.sessionInfo seq 0 0 0 ms []))] = _
      simp [Spec.sentTo]
    · intro k' hk'
      have := c1 k' hk'
      by_cases hif : ∃ q', q.devices.get? k' = some q' ∧
          Gets h 0 (sess h p.type sessionStateActive seq data p.config (some k)) k' q' ∧
          ¬Unseen env.estimate h 0 (sess h p.type sessionStateActive seq data p.config (some k)) k' q'
      · rw [if_pos hif] at this ⊢
        obtain ⟨mac, e1, e2⟩ := this
        cases e1
        exact e2
      · rw [if_neg hif] at this ⊢
        exact this
  · cases g1

/-- The data are those the controlee waits for. -/
theorem reads_parcel {p p' : Plan} {f : Bytes} (hm : p'.peer = p.mac) (hf : f.length ≤ 65535) : Reads (.data (p'.wants f)) (.data (parcel p f)) := by
  obtain ⟨b, h1, h2, h3⟩ := arrives_data (d := parcel p f) hf
  refine ⟨b, h1, h2, ?_⟩
  suffices he : Py.parseData b = some (p'.wants f) by
    have hn : (p'.wants f).show.returned = true :=
      (PyShow.show_returned (s := b) (o := p'.wants f) (Or.inl ⟨trivial, he⟩)).mpr (show NamedStatus 0 by decide)
    unfold accepts returns Expected.object
    dsimp only [Expected.isData]
    simp only [if_true, he, decide_true, Option.any_some, hn, Bool.or_true, Bool.and_true]
  rw [h3]
  have : (MacAddress.short p.mac).toU64.toNat = ofLe p.mac.1 := by
    obtain ⟨m, hm⟩ := p.mac
    match m, hm with
    | [a, b], _ =>
      have ha := a.toNat_lt
      have hb := b.toNat_lt
      show ((UInt16.ofNat (ofLe [a, b])).toUInt64).toNat = ofLe [a, b]
      rw [UInt16.toNat_toUInt64, UInt16.toNat_ofNat']
      simp only [ofLe]
      omega
  unfold Plan.wants
  rw [hm, ← this]
  rfl

theorem mem_of_pending {c : Command} {q : List Command} (hlen : s.stamps.length = s.clock.sys.queue.length)
    (hq : s.clock.sys.queue = c :: q) (hc : about c = some h) : ∃ a r, pending h s.stamps s.clock.sys.queue = (a, c) :: r := by
  rw [hq]
  cases hst : s.stamps with
  | nil => rw [hst, hq] at hlen; cases hlen
  | cons b as => rw [pending_pop, if_pos hc]; exact ⟨b, _, rfl⟩

end Pica.Tests

import Verif.Props.Commute
/-! C120: rounds of different hosts. -/

namespace Pica.Props
open Spec

/-- The devices look alike to the round of another device. -/
structure LooksAlike (d d' : Device) : Prop where
  handle : d'.handle = d.handle
  ranging : ∀ s sid, d'.canStartRanging s sid = d.canStartRanging s sid
  receives : ∀ sid, d'.canReceiveDataTransfer sid = d.canReceiveDataTransfer sid
  mac : ∀ sid, ((d'.session sid).bind fun t => t.appConfig.deviceMacAddress) = (d.session sid).bind fun t => t.appConfig.deviceMacAddress

theorem looks_refl (d : Device) : LooksAlike d d := ⟨rfl, fun _ _ => rfl, fun _ => rfl, fun _ => rfl⟩

theorem looks_put {d : Device} {x : UInt32} {s t : Session} (h : d.session x = some s) (h1 : t.state = s.state)
    (h2 : t.sessionType = s.sessionType) (h3 : t.appConfig = s.appConfig) : LooksAlike d (d.putSession x t) := by
  have key : ∀ sid, (d.putSession x t).session sid = if x = sid then some t else d.session sid := fun sid => AMap.get?_insert ..
  refine ⟨rfl, fun p sid => ?_, fun sid => ?_, fun sid => ?_⟩
  · unfold Device.canStartRanging
    rw [key]
    by_cases e : x = sid
    · subst e; rw [if_pos rfl, h]; dsimp only; rw [h1, h3]
    · rw [if_neg e]
  · unfold Device.canReceiveDataTransfer
    rw [key]
    by_cases e : x = sid
    · subst e; rw [if_pos rfl, h]; dsimp only; rw [h1, h2, h3]
    · rw [if_neg e]
  · rw [key]
    by_cases e : x = sid
    · subst e; rw [if_pos rfl, h]; dsimp only [Option.bind_some]; rw [h3]
    · rw [if_neg e]

theorem peer_looks {est : Nat → Nat → Option RangingMeasurement} {dh h : Nat} {sid : UInt32} {s : Session} {c : Bool}
    {qs qs' : List Device} (hl : List.Forall₂ LooksAlike qs qs') : ∀ xs ds, Pica.peerLoop est dh h sid s c qs = .ok (xs, ds) →
      ∃ ds', Pica.peerLoop est dh h sid s c qs' = .ok (xs, ds') ∧ ds'.map Device.handle = ds.map Device.handle := by
  induction hl with
  | nil => intro xs ds hp; exact ⟨ds, hp, rfl⟩
  | @cons q q' qs qs' hq _ ih =>
    intro xs ds hp
    unfold Pica.peerLoop at hp ⊢
    rw [hq.handle, hq.ranging, hq.receives, hq.mac]
    split
    · rename_i e
      rw [if_pos e] at hp
      exact ih _ _ hp
    · rename_i e
      rw [if_neg e] at hp
      dsimp only at hp ⊢
      have tail : ∀ {ys es}, Pica.peerLoop est dh h sid s c qs = .ok (ys, es) → ∀ b : Bool,
          ∃ es', Pica.peerLoop est dh h sid s c qs' = .ok (ys, es') ∧
            (if b then q' :: es' else es').map Device.handle = (if b then q :: es else es).map Device.handle := by
        intro ys es hy b
        obtain ⟨es', h1, h2⟩ := ih _ _ hy
        refine ⟨es', h1, ?_⟩
        cases b
        · exact h2
        · simp only [if_true, List.map_cons, hq.handle, h2]
      cases hc : q.canStartRanging s sid with
      | error z => rw [hc] at hp; cases hp
      | ok b =>
        rw [hc] at hp
        simp only [bind, Except.bind] at hp ⊢
        cases b with
        | false =>
          simp only [Bool.false_eq_true, if_false] at hp ⊢
          cases hy : Pica.peerLoop est dh h sid s c qs with
          | error z => rw [hy] at hp; cases hp
          | ok w =>
            obtain ⟨ys, es⟩ := w
            rw [hy] at hp
            obtain ⟨es', h1, h2⟩ := tail hy (c && q.canReceiveDataTransfer sid)
            cases hp
            rw [h1]
            exact ⟨_, rfl, h2⟩
        | true =>
          simp only [if_true] at hp ⊢
          cases hm : (q.session sid).bind fun t => t.appConfig.deviceMacAddress with
          | none => rw [hm] at hp; cases hp
          | some m =>
            rw [hm] at hp
            dsimp only at hp ⊢
            cases h1 : est h q.handle with
            | none =>
              rw [h1] at hp
              dsimp only at hp ⊢
              exact ih _ _ hp
            | some l =>
              cases h2 : est q.handle h with
              | none =>
                rw [h1, h2] at hp
                dsimp only at hp ⊢
                exact ih _ _ hp
              | some r =>
                rw [h1, h2] at hp
                dsimp only at hp ⊢
                cases hk : Pica.makeMeasurement m l r with
                | error z => rw [hk] at hp; cases hp
                | ok k =>
                  rw [hk] at hp
                  dsimp only at hp ⊢
                  cases hy : Pica.peerLoop est dh h sid s c qs with
                  | error z => rw [hy] at hp; cases hp
                  | ok w =>
                    obtain ⟨ys, es⟩ := w
                    rw [hy] at hp
                    obtain ⟨es', h3, h4⟩ := tail hy (c && q.canReceiveDataTransfer sid)
                    cases hp
                    rw [h3]
                    exact ⟨_, rfl, h4⟩

theorem sends_looks {alive : Nat → Bool} {sid : UInt32} {s : Session} : ∀ {ds ds' : List Device},
    ds'.map Device.handle = ds.map Device.handle → Pica.dataSends alive sid s ds' = Pica.dataSends alive sid s ds
  | [], [], _ => rfl
  | [], _ :: _, h => by cases h
  | _ :: _, [], h => by cases h
  | q :: ds, q' :: ds', h => by
    rw [List.map_cons, List.map_cons, List.cons.injEq] at h
    unfold Pica.dataSends
    rw [h.1, sends_looks h.2]

theorem values_looks {m : AMap Nat Device} {b : Nat} {d d' : Device} (h : m.get? b = some d) (hl : LooksAlike d d') :
    List.Forall₂ LooksAlike m.values (m.insert b d').values := by
  have all : ∀ l : List Device, List.Forall₂ LooksAlike l l := fun l => by
    induction l with
    | nil => exact .nil
    | cons x l ih => exact .cons (looks_refl x) ih
  induction m with
  | nil => cases h
  | cons e m ih =>
    rw [AMap.get?_cons] at h
    by_cases he : e.1 = b
    · rw [if_pos he] at h
      cases h
      simp only [AMap.insert, he, if_true, AMap.values, List.map_cons]
      exact .cons hl (all _)
    · rw [if_neg he] at h
      simp only [AMap.insert, he, if_false]
      exact .cons (looks_refl _) (ih h)

/-- A round does the same whatever other rounds there were. -/
theorem round_looks {p p' : Pica} {env : Env} {a b : Nat} {sid : UInt32} {o : List Out} {d d' : Device} (hn : a ≠ b)
    (hb : p.devices.get? b = some d) (hl : LooksAlike d d') (h : p.ranging env a sid = .ok (p', o)) :
    ∃ e e', p.devices.get? a = some e ∧ LooksAlike e e' ∧ p' = { p with devices := p.devices.insert a e' } ∧
      Pica.ranging { p with devices := p.devices.insert b d' } env a sid =
        .ok ({ p with devices := (p.devices.insert b d').insert a e' }, o) := by
  obtain ⟨e, s, ms, ms', ts, o₁, h1, h2, h3, h4, h5, h6⟩ := Pica.ranging_ok h
  obtain ⟨ts', h7, h8⟩ := peer_looks (values_looks hb hl) _ _ h4
  have h9 : (p.devices.insert b d').get? a = some e := by rw [AMap.get?_insert_of_ne hn, h1]
  have h5' : Pica.dataSends env.alive sid s ts' = .ok o₁ := by rw [sends_looks h8, h5]
  rcases h6 with ⟨k1, k2, rfl, k4, rfl⟩ | ⟨k1, rfl, rfl⟩
  · refine ⟨e, _, h1, looks_put h2 (t := { s with sequenceNumber := s.sequenceNumber + 1, data := [] }) rfl rfl rfl, rfl, ?_⟩
    unfold Pica.ranging
    simp only [h9, h2, h3, h7, h5', bind, Except.bind, k1, if_true, k2, k4]
  · refine ⟨e, _, h1, looks_put h2 (t := { s with data := [] }) rfl rfl rfl, rfl, ?_⟩
    unfold Pica.ranging
    simp only [h9, h2, h3, h7, h5', bind, Except.bind, k1, Bool.false_eq_true, if_false]

theorem round_shape {p p' : Pica} {env : Env} {a : Nat} {sid : UInt32} {o : List Out} (h : p.ranging env a sid = .ok (p', o)) :
    ∃ e e', p.devices.get? a = some e ∧ LooksAlike e e' ∧ p' = { p with devices := p.devices.insert a e' } := by
  obtain ⟨e, s, -, -, -, -, h1, h2, -, -, -, ⟨-, -, -, -, rfl⟩ | ⟨-, -, rfl⟩⟩ := Pica.ranging_ok h
  · exact ⟨e, _, h1, looks_put h2 (t := { s with sequenceNumber := s.sequenceNumber + 1, data := [] }) rfl rfl rfl, rfl⟩
  · exact ⟨e, _, h1, looks_put h2 (t := { s with data := [] }) rfl rfl rfl, rfl⟩

theorem insert_back {K V : Type} [DecidableEq K] {m : AMap K V} {a : K} {v w : V} (h : m.get? a = some v) : (m.insert a w).insert a v = m := by
  induction m with
  | nil => cases h
  | cons e m ih =>
    rw [AMap.get?_cons] at h
    by_cases he : e.1 = a
    · rw [if_pos he] at h
      cases h
      simp only [AMap.insert, he, if_true]
      rw [← he]
    · rw [if_neg he] at h
      simp only [AMap.insert, he, if_false, ih h]

/-- C120: the rounds of two hosts can be processed in either order: both are told the same, and the state is the same. -/
theorem C120_rounds {p q r : Pica} {env env' : Env} {a b : Nat} {x y : UInt32} {o o' : List Out} (hn : a ≠ b)
    (h₁ : p.step env (.ranging a x) = .ok (q, o)) (h₂ : q.step env' (.ranging b y) = .ok (r, o')) :
    ∃ s, p.step env' (.ranging b y) = .ok (s, o') ∧ s.step env (.ranging a x) = .ok (r, o) := by
  change p.ranging env a x = _ at h₁
  change q.ranging env' b y = _ at h₂
  change ∃ s, p.ranging env' b y = .ok (s, o') ∧ Pica.ranging s env a x = .ok (r, o)
  obtain ⟨e, e', he, hl, rfl⟩ := round_shape h₁
  obtain ⟨f, f', hf, hk, rfl, h3⟩ := round_looks (b := a) (d := e') (d' := e) hn.symm (AMap.get?_insert_self ..)
    ⟨hl.handle.symm, fun _ _ => (hl.ranging _ _).symm, fun _ => (hl.receives _).symm, fun _ => (hl.mac _).symm⟩ h₂
  dsimp only at h3 hf ⊢
  rw [insert_back he] at h3
  rw [AMap.get?_insert_of_ne hn.symm] at hf
  refine ⟨_, h3, ?_⟩
  obtain ⟨e₁, e₂, h4, -, h5, h6⟩ := round_looks hn hf hk h₁
  rw [h6, insert_swap hn (by rw [he]; simp) (by rw [hf]; simp)]
  have h7 : e' = e₂ := by
    have := congrArg (fun z : Pica => z.devices.get? a) h5
    simpa using this
  rw [h7]

theorem isRoundOf_iff {h : Nat} {ev : Pica.Event} : isRoundOf h ev = true ↔ ∃ sid, ev.command = .ranging h sid := by
  obtain ⟨env, c, out⟩ := ev
  cases c with
  | ranging k b =>
    unfold isRoundOf
    simp
  | _ => simp [isRoundOf]

theorem round_later {h : Nat} {ev : Pica.Event} (he : isRoundOf h ev = true) {u v : List Pica.Event} :
    ∀ {p q r : Pica}, (∀ x ∈ u, ∃ k, isRoundOf k x = true) → (∀ x ∈ u, isRoundOf h x = false) →
      p.step ev.env ev.command = .ok (q, ev.out) → Goes q (u ++ v) r → Goes p (u ++ ev :: v) r := by
  induction u with
  | nil => intro p q r _ _ hs hg; exact .cons hs hg
  | cons x u ih =>
    intro p q r ho hu hs hg
    rw [List.cons_append] at hg
    cases hg with
    | @cons _ q' _ _ _ hs' hg =>
      obtain ⟨k, hk⟩ := ho x (List.mem_cons_self ..)
      have hkh : h ≠ k := by
        rintro rfl
        rw [hu x (List.mem_cons_self ..)] at hk
        cases hk
      obtain ⟨b, hb⟩ := isRoundOf_iff.mp he
      obtain ⟨c, hc⟩ := isRoundOf_iff.mp hk
      rw [hb] at hs
      rw [hc] at hs'
      obtain ⟨s, h1, h2⟩ := C120_rounds hkh hs hs'
      rw [← hc] at h1
      rw [← hb] at h2
      exact .cons h1 (ih (fun y hy => ho y (List.mem_cons_of_mem _ hy)) (fun y hy => hu y (List.mem_cons_of_mem _ hy)) h2 hg)

/-- C120: in a sequence of rounds only, it does not matter which host is served first: if each host has its rounds in the same
order, all are told the same. -/
theorem C120_rounds_mixed {tr ur : List Pica.Event} {p r : Pica} (hg : Goes p tr r) (ht : ∀ ev ∈ tr, ∃ h, isRoundOf h ev = true)
    (hu : ∀ ev ∈ ur, ∃ h, isRoundOf h ev = true) (hc : ∀ h, ur.filter (isRoundOf h) = tr.filter (isRoundOf h)) : Goes p ur r := by
  induction hg generalizing ur with
  | nil =>
    cases ur with
    | nil => exact .nil
    | cons x ur =>
      obtain ⟨h, hx⟩ := hu x (List.mem_cons_self ..)
      have := hc h
      rw [List.filter_cons_of_pos hx] at this
      cases this
  | @cons p q r ev tr hs hg ih =>
    obtain ⟨h, he⟩ := ht ev (List.mem_cons_self ..)
    have hh := hc h
    rw [List.filter_cons_of_pos he] at hh
    obtain ⟨u, v, rfl, hno, -, hv⟩ := List.filter_eq_cons_iff.mp hh
    have hu1 : ∀ y ∈ u, ∃ h, isRoundOf h y = true := fun y hy => hu y (List.mem_append_left _ hy)
    refine round_later he hu1 (fun x hx => by simpa using hno x hx) hs (ih (fun y hy => ht y (List.mem_cons_of_mem _ hy)) ?_ ?_)
    · intro y hy
      rcases List.mem_append.mp hy with hy | hy
      · exact hu1 y hy
      · exact hu y (List.mem_append_right _ (List.mem_cons_of_mem _ hy))
    · intro k
      have hk := hc k
      rw [List.filter_append, List.filter_cons] at hk
      rw [List.filter_append]
      by_cases hkh : isRoundOf k ev = true
      · have : k = h := by
          obtain ⟨b, hb⟩ := isRoundOf_iff.mp he
          obtain ⟨c, hc⟩ := isRoundOf_iff.mp hkh
          rw [hb] at hc
          cases hc
          rfl
        subst this
        have : u.filter (isRoundOf k) = [] := List.filter_eq_nil_iff.mpr fun x hx => by simpa using hno x hx
        rw [this, hv]
        rfl
      · rw [if_neg hkh, List.filter_cons_of_neg hkh] at hk
        exact hk

open Ex in
/-- The rounds of two hosts in the same session, in either order. -/
example : ∃ (p q r s : Pica) (o o' : List Out), p.Reachable ∧ p.step env (.ranging 0 7) = .ok (q, o) ∧ q.step env (.ranging 1 7) = .ok (r, o') ∧
    Goes p [⟨env, .ranging 1 7, o'⟩, ⟨env, .ranging 0 7, o⟩] r ∧
    p.step env (.ranging 1 7) = .ok (s, o') ∧ s.step env (.ranging 0 7) = .ok (r, o) ∧ sentTo 0 o ≠ [] ∧ sentTo 1 o ≠ [] ∧
    sentTo 1 o' ≠ [] := by
  obtain ⟨⟨q, o⟩, h1, hf⟩ := exists_ok (x := (after twoActive).step env (.ranging 0 7))
    (f := fun y => (decide (sentTo 0 y.2 ≠ []), decide (sentTo 1 y.2 ≠ []), (y.1.step env (.ranging 1 7)).toOption.map fun z =>
      decide (sentTo 1 z.2 ≠ []))) (b := (true, true, some true)) (by decide +kernel)
  rw [Prod.mk.injEq, Prod.mk.injEq] at hf
  obtain ⟨⟨r, o'⟩, h2, hf2⟩ := exists_ok hf.2.2
  obtain ⟨s, h3, h4⟩ := C120_rounds (by decide) h1 h2
  have hg : Goes (after twoActive) [⟨env, .ranging 1 7, o'⟩, ⟨env, .ranging 0 7, o⟩] r := by
    refine C120_rounds_mixed (tr := [⟨env, .ranging 0 7, o⟩, ⟨env, .ranging 1 7, o'⟩]) (.cons h1 (.cons h2 .nil)) ?_ ?_ fun h => ?_
    · simp [isRoundOf]
    · simp [isRoundOf]
    · unfold isRoundOf
      by_cases h0 : 0 = h
      · subst h0; rfl
      · by_cases h1 : 1 = h
        · subst h1; rfl
        · simp [h0, h1]
  exact ⟨_, q, r, s, o, o', after_reachable _ twoActive_ok, h1, h2, hg, h3, h4, of_decide_eq_true hf.1, of_decide_eq_true hf.2.1,
    of_decide_eq_true hf2⟩

theorem erase_insert {K V : Type} [DecidableEq K] {m : AMap K V} {a b : K} {v : V} (hn : a ≠ b) :
    (m.insert a v).erase b = (m.erase b).insert a v := by
  induction m with
  | nil => simp [AMap.insert, AMap.erase, hn]
  | cons e m ih =>
    unfold AMap.erase at ih ⊢
    by_cases ha : e.1 = a
    · simp [AMap.insert, ha, hn]
    · by_cases hb : e.1 = b
      · rw [AMap.insert, if_neg ha, List.filter_cons_of_neg (by simp [hb]), List.filter_cons_of_neg (by simp [hb])]
        exact ih
      · simp only [AMap.insert, ha, if_false, List.filter_cons, hb, ne_eq, not_false_eq_true, decide_true, if_true]
        exact congrArg _ ih

/-- C120: a packet of one host and the end of the connection of another can be exchanged. -/
theorem C120_disconnect {p q r : Pica} {env env' : Env} {a b : Nat} {x : Bytes} {o o' : List Out} (hn : a ≠ b)
    (h₁ : p.step env (.uciPacket a x) = .ok (q, o)) (h₂ : q.step env' (.disconnect b) = .ok (r, o')) :
    ∃ s, p.step env' (.disconnect b) = .ok (s, o') ∧ s.step env (.uciPacket a x) = .ok (r, o) := by
  change p.uciPacket env a x = _ at h₁
  change Except.ok (q.disconnect b) = _ at h₂
  change ∃ s, Except.ok (p.disconnect b) = .ok (s, o') ∧ Pica.uciPacket s env a x = .ok (r, o)
  rw [Except.ok.injEq] at h₂
  have hq : (∀ k, k ≠ a → q.devices.get? k = p.devices.get? k) ∧
      (p.devices.get? a = none ∧ q = p ∧ o = [] ∨ ∃ d d' w e, p.devices.get? a = some d ∧ d.receivePacket env.tid x = .ok (d', w, e) ∧
        q = { p with devices := p.devices.insert a d' } ∧ o = (w.map (.send a)).toList ++ e.map (.effect a)) := by
    unfold Pica.uciPacket at h₁
    cases hd : p.devices.get? a with
    | none =>
      rw [hd, Except.ok.injEq, Prod.mk.injEq] at h₁
      obtain ⟨rfl, rfl⟩ := h₁
      exact ⟨fun _ _ => rfl, .inl ⟨rfl, rfl, rfl⟩⟩
    | some d =>
      rw [hd] at h₁
      dsimp only at h₁
      cases hx : d.receivePacket env.tid x with
      | error z => rw [hx] at h₁; cases h₁
      | ok z =>
        obtain ⟨d', w, e⟩ := z
        rw [hx] at h₁
        cases h₁
        exact ⟨fun k hk => AMap.get?_insert_of_ne hk, .inr ⟨d, d', w, e, rfl, hx, rfl, rfl⟩⟩
  obtain ⟨hget, hq⟩ := hq
  unfold Pica.disconnect at h₂ ⊢
  rw [hget b hn.symm] at h₂
  cases hb : p.devices.get? b with
  | none =>
    rw [hb, Prod.mk.injEq] at h₂
    obtain ⟨rfl, rfl⟩ := h₂
    exact ⟨p, rfl, h₁⟩
  | some f =>
    rw [hb, Prod.mk.injEq] at h₂
    obtain ⟨rfl, rfl⟩ := h₂
    refine ⟨_, rfl, ?_⟩
    unfold Pica.uciPacket
    dsimp only
    rw [AMap.get?_erase_of_ne hn]
    rcases hq with ⟨hd, rfl, rfl⟩ | ⟨d, d', w, e, hd, hx, rfl, rfl⟩
    · rw [hd]
    · rw [hd]
      dsimp only
      rw [hx, erase_insert hn]
      rfl

open Ex in
/-- One host stops, the other leaves. -/
example : ∃ (p q r s : Pica) (o o' : List Out), p.Reachable ∧ p.step env (.uciPacket 0 (stop 7)) = .ok (q, o) ∧
    q.step env (.disconnect 1) = .ok (r, o') ∧ p.step env (.disconnect 1) = .ok (s, o') ∧
    s.step env (.uciPacket 0 (stop 7)) = .ok (r, o) ∧ o ≠ [] ∧ o' ≠ [] := by
  obtain ⟨⟨q, o⟩, h1, hf⟩ := exists_ok (x := (after twoActive).step env (.uciPacket 0 (stop 7)))
    (f := fun y => (y.2.isEmpty, (y.1.step env (.disconnect 1)).toOption.map fun z => z.2.isEmpty))
    (b := (false, some false)) (by decide +kernel)
  rw [Prod.mk.injEq] at hf
  obtain ⟨⟨r, o'⟩, h2, hf2⟩ := exists_ok hf.2
  obtain ⟨s, h3, h4⟩ := C120_disconnect (by decide) h1 h2
  refine ⟨_, q, r, s, o, o', after_reachable _ twoActive_ok, h1, h2, h3, h4, ?_, ?_⟩
  · rintro rfl; exact absurd hf.1 (by simp)
  · rintro rfl; exact absurd hf2 (by simp)

end Pica.Props

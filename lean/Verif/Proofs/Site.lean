import Verif.Spec.Site
import Verif.Proofs.Http
import Verif.Proofs.System
import Verif.Props.Registry
/-! The registry of the web server and the emulator agree up to what is under way. -/

set_option linter.dupNamespace false

namespace Pica
open Spec

/-- Only the commands for anchors are answered. -/
theorem step_unanswered {p p' : Pica} {env : Env} {c : Command} {out : List Out} (hi : p.PInv)
    (h : p.step env c = .ok (p', out)) (hc : ∀ m, c ≠ .createAnchor m) (hd : ∀ m, c ≠ .destroyAnchor m) :
    ∀ r, Out.anchorReply r ∉ out := by
  intro r hr
  cases c with
  | connect =>
    cases h
    simp at hr
  | disconnect x =>
    change Except.ok (p.disconnect x) = _ at h
    unfold Pica.disconnect at h
    split at h
    · cases h; simp at hr
    · cases h; cases hr
  | ranging x y =>
    obtain ⟨d, s, ms, o, -, -, -, -, hsend, -, hout⟩ := round_ok hi h
    have key : Out.anchorReply r ∉ o := fun ho => by obtain ⟨k, q, hk⟩ := hsend _ ho; cases hk
    rcases hout with ⟨-, rfl, -⟩ | ⟨-, rfl, -⟩
    · rcases List.mem_append.mp hr with hz | hz
      · exact key hz
      · simp at hz
    · exact key hr
  | stopRanging mac y =>
    cases h
    obtain ⟨e, -, he⟩ := List.mem_flatMap.mp hr
    obtain ⟨z, -, hz⟩ := List.mem_map.mp he
    cases hz
  | uciPacket x bytes =>
    change p.uciPacket env x bytes = _ at h
    unfold Pica.uciPacket at h
    split at h
    · cases h; cases hr
    · simp only [bind, Except.bind] at h
      split at h
      · cases h
      · cases h
        rcases List.mem_append.mp hr with hw | hw
        · obtain ⟨q, -, hq⟩ := Option.map_eq_some_iff.mp (Option.mem_toList.mp hw)
          cases hq
        · obtain ⟨q, -, hq⟩ := List.mem_map.mp hw
          cases hq
  | createAnchor m => exact hc m rfl
  | destroyAnchor m => exact hd m rfl

namespace Site

/-- An anchor command. -/
def isAnchor : Command → Bool
  | .createAnchor _ | .destroyAnchor _ => true
  | _ => false

theorem isAnchor_command (a : Ask) : isAnchor a.command = true := by
  unfold Ask.command; split <;> rfl

/-- What the registry is to know of a device. -/
abbrev Tag := Option (Category × MacAddress)

def tag (o : Option Info) : Tag := o.map fun i => (i.category, i.mac)

def evNotice (h : Nat) : PicaEvent → Option Tag
  | .connected k m => if k = h then some (some (.uci, m)) else none
  | .disconnected k _ => if k = h then some none else none

def ansNotice (h : Nat) : Ask × Except PicaCommandError Nat → Option Tag
  | (a, .ok k) => if k = h then some (a.create.map fun _ => (.anchor, a.mac)) else none
  | (_, .error _) => none

/-- What is under way to the registry about a handle. -/
def evs (s : Site) (h : Nat) : List Tag := s.events.filterMap (evNotice h)
def ans (s : Site) (h : Nat) : List Tag := s.answers.filterMap (ansNotice h)

/-- What the registry will know when all of it has arrived. -/
def due (s : Site) (h : Nat) : Tag := (evs s h ++ ans s h).getLastD (tag (s.web.devices.get? h))

structure Agree (s : Site) : Prop where
  nodup : (AMap.keys s.web.devices).Nodup
  evLt : ∀ h, evs s h ≠ [] → h < s.sys.pica.counter
  ansLt : ∀ h, ans s h ≠ [] → h < s.sys.pica.counter
  excl : ∀ h, evs s h = [] ∨ ans s h = []
  agree : ∀ h c m, due s h = some (c, m) ↔ Present s.sys.pica h c m

structure Inv (s : Site) : Prop where
  sys : s.sys.Inv
  asks : s.asks.map Ask.command = s.sys.queue.filter isAnchor
  web : s.web.poisoned = false → Agree s

theorem inv_new : Inv new where
  sys := System.inv_new
  asks := rfl
  web _ := ⟨List.nodup_nil, fun h hc => absurd rfl hc, fun h hc => absurd rfl hc, fun h => .inl rfl, fun h c m =>
    ⟨fun hc => (by cases hc), fun hc => by cases c <;> · obtain ⟨_, hd, -⟩ := hc; cases hd⟩⟩

/-! The steps of the emulator. -/

theorem present_of {p q : Pica} (hd : ∀ h m, (∃ d, q.devices.get? h = some d ∧ d.macAddress = m) ↔
      ∃ d, p.devices.get? h = some d ∧ d.macAddress = m)
    (ha : ∀ m, q.anchors.get? m = p.anchors.get? m) (h : Nat) (c : Category) (m : MacAddress) :
    Present q h c m ↔ Present p h c m := by
  cases c with
  | uci => exact hd h m
  | anchor => show (∃ a, _) ↔ ∃ a, _; rw [ha]

/-- The devices by handle. -/
theorem present_uci {p : Pica} (hi : p.PInv) (h : Nat) (m : MacAddress) :
    Present p h .uci m ↔ (p.devices.get? h).isSome = true ∧ m = Pica.deviceMac h := by
  unfold Present
  rw [Option.isSome_iff_exists]
  constructor
  · rintro ⟨d, hd, rfl⟩; exact ⟨⟨d, hd⟩, (hi.dev h d hd).2.2.1⟩
  · rintro ⟨⟨d, hd⟩, rfl⟩; exact ⟨d, hd, (hi.dev h d hd).2.2.1⟩

theorem present_reorder {p q : Pica} (hi : p.PInv) (hr : Pica.Reorder p q) (h : Nat) (c : Category) (m : MacAddress) :
    Present q h c m ↔ Present p h c m := by
  obtain ⟨-, -, ha, hd⟩ := Pica.reorder_dev hi hr
  cases c with
  | uci =>
    rw [present_uci (Pica.reorder_inv hi hr), present_uci hi]
    rcases hd h with e | ⟨d, l, h1, -, h2⟩
    · rw [e]
    · rw [h1, h2]; rfl
  | anchor => show (∃ a, _) ↔ ∃ a, _; rw [AMap.get?_perm hi.ancNodup ha]

theorem getLastD_append (l : List Tag) (t d : Tag) : (l ++ [t]).getLastD d = t := by simp

theorem getLastD_mem {l : List Tag} (h : l ≠ []) (d : Tag) : l.getLastD d ∈ l := by
  obtain ⟨a, t, rfl⟩ := List.eq_nil_or_concat l |>.resolve_left h
  simp

theorem Agree.uci_ans {s : Site} (ha : Agree s) {h : Nat} {m : MacAddress} (hp : Present s.sys.pica h .uci m) :
    ans s h = [] := by
  by_contra hn
  have he := (ha.excl h).resolve_right hn
  have hd := (ha.agree h .uci m).mpr hp
  unfold due at hd
  rw [he, List.nil_append] at hd
  have hm := getLastD_mem hn (tag (s.web.devices.get? h))
  rw [hd] at hm
  obtain ⟨⟨a, r⟩, -, hx⟩ := List.mem_filterMap.mp hm
  cases r with
  | error e => cases hx
  | ok k =>
    unfold ansNotice at hx
    dsimp only at hx
    split at hx
    · cases hc : a.create <;> rw [hc] at hx <;> cases hx
    · cases hx

theorem Agree.anchor_evs {s : Site} (ha : Agree s) {h : Nat} {m : MacAddress} (hp : Present s.sys.pica h .anchor m) :
    evs s h = [] := by
  by_contra hn
  have he := (ha.excl h).resolve_left hn
  have hd := (ha.agree h .anchor m).mpr hp
  unfold due at hd
  rw [he, List.append_nil] at hd
  have hm := getLastD_mem hn (tag (s.web.devices.get? h))
  rw [hd] at hm
  obtain ⟨e, -, hx⟩ := List.mem_filterMap.mp hm
  unfold evNotice at hx
  cases e <;> (dsimp only at hx; split at hx <;> cases hx)

theorem Agree.extend {s s' : Site} (ha : Agree s) (hw : s'.web = s.web)
    (hc : s.sys.pica.counter ≤ s'.sys.pica.counter)
    (H : ∀ h, (evs s' h = evs s h ∧ ans s' h = ans s h ∧ ∀ c m, Present s'.sys.pica h c m ↔ Present s.sys.pica h c m) ∨
      (∃ t, evs s' h = evs s h ++ [t] ∧ ans s' h = [] ∧ h < s'.sys.pica.counter ∧
        ∀ c m, t = some (c, m) ↔ Present s'.sys.pica h c m) ∨
      (∃ t, evs s' h = [] ∧ ans s' h = ans s h ++ [t] ∧ h < s'.sys.pica.counter ∧
        ∀ c m, t = some (c, m) ↔ Present s'.sys.pica h c m)) : Agree s' where
  nodup := by rw [hw]; exact ha.nodup
  evLt h hn := by
    rcases H h with ⟨e, -, -⟩ | ⟨t, -, -, hl, -⟩ | ⟨t, e, -⟩
    · exact lt_of_lt_of_le (ha.evLt h (by rwa [← e])) hc
    · exact hl
    · exact absurd e hn
  ansLt h hn := by
    rcases H h with ⟨-, e, -⟩ | ⟨t, -, e, -⟩ | ⟨t, -, -, hl, -⟩
    · exact lt_of_lt_of_le (ha.ansLt h (by rwa [← e])) hc
    · exact absurd e hn
    · exact hl
  excl h := by
    rcases H h with ⟨e, e', -⟩ | ⟨t, -, e, -⟩ | ⟨t, e, -⟩
    · rw [e, e']; exact ha.excl h
    · exact .inr e
    · exact .inl e
  agree h c m := by
    unfold due
    rcases H h with ⟨e, e', hp⟩ | ⟨t, e, e', -, hp⟩ | ⟨t, e, e', -, hp⟩
    · rw [e, e', hw, hp]; exact ha.agree h c m
    · rw [e, e', List.append_nil, getLastD_append]; exact hp c m
    · rw [e, e', List.nil_append, getLastD_append]; exact hp c m

/-- Steps that keep the emulator and what is under way, and the registry up to positions. -/
theorem Agree.same {s s' : Site} (ha : Agree s) (hn : (AMap.keys s'.web.devices).Nodup)
    (hw : ∀ h, tag (s'.web.devices.get? h) = tag (s.web.devices.get? h))
    (he : ∀ h, evs s' h = evs s h) (hb : ∀ h, ans s' h = ans s h) (hc : s'.sys.pica.counter = s.sys.pica.counter)
    (hp : ∀ h c m, Present s'.sys.pica h c m ↔ Present s.sys.pica h c m) : Agree s' where
  nodup := hn
  evLt h := by rw [he, hc]; exact ha.evLt h
  ansLt h := by rw [hb, hc]; exact ha.ansLt h
  excl h := by rw [he, hb]; exact ha.excl h
  agree h c m := by unfold due; rw [he, hb, hw, hp]; exact ha.agree h c m

/-- Steps that take a notice from those under way to the registry. -/
theorem Agree.take {s s' : Site} (ha : Agree s) (hs : s'.sys = s.sys) (hn : (AMap.keys s'.web.devices).Nodup) (k : Nat)
    (t : Tag) (ht : tag (s'.web.devices.get? k) = t)
    (hw : ∀ h, h ≠ k → s'.web.devices.get? h = s.web.devices.get? h)
    (he : ∀ h, h ≠ k → evs s' h = evs s h) (hb : ∀ h, h ≠ k → ans s' h = ans s h)
    (hk : evs s k ++ ans s k = t :: (evs s' k ++ ans s' k)) (hke : evs s k = [] → evs s' k = [])
    (hka : ans s k = [] → ans s' k = []) : Agree s' where
  nodup := hn
  evLt h hn := by
    rw [hs]
    by_cases h0 : h = k
    · subst h0; exact ha.evLt h (fun e => hn (hke e))
    · exact ha.evLt h (by rwa [← he h h0])
  ansLt h hn := by
    rw [hs]
    by_cases h0 : h = k
    · subst h0; exact ha.ansLt h (fun e => hn (hka e))
    · exact ha.ansLt h (by rwa [← hb h h0])
  excl h := by
    by_cases h0 : h = k
    · subst h0; exact (ha.excl h).imp hke hka
    · rw [he h h0, hb h h0]; exact ha.excl h
  agree h c m := by
    rw [hs, ← ha.agree h c m]
    unfold due
    by_cases h0 : h = k
    · subst h0
      rw [hk, ht, List.getLastD_cons]
    · rw [he h h0, hb h h0, hw h h0]

theorem silent_frame {s t : System} {l : System.Label} (hl : Silent l) (h : System.Step s l t) :
    (t.pica = s.pica ∨ s.pica.Reorder t.pica) ∧ t.queue.filter isAnchor = s.queue.filter isAnchor := by
  have app : ∀ c : Command, isAnchor c = false → (s.queue ++ [c]).filter isAnchor = s.queue.filter isAnchor := by
    intro c hc; rw [List.filter_append, List.filter_cons_of_neg (by rw [hc]; simp)]; simp
  cases h with
  | @request c he hroom =>
    refine ⟨.inl rfl, app _ ?_⟩
    cases c <;> first | rfl | exact absurd hl (by simp [Silent])
  | packet => exact ⟨.inl rfl, app _ rfl⟩
  | closes => exact ⟨.inl rfl, rfl⟩
  | fails => exact ⟨.inl rfl, rfl⟩
  | leaves => exact ⟨.inl rfl, app _ rfl⟩
  | tick => exact ⟨.inl rfl, app _ rfl⟩
  | dies => exact ⟨.inl rfl, rfl⟩
  | inBand => exact ⟨.inl rfl, app _ rfl⟩
  | notifies => exact ⟨.inl rfl, rfl⟩
  | process => exact absurd hl (by simp [Silent])
  | panics => exact absurd hl (by simp [Silent])
  | shuffle hr => exact ⟨.inr hr, rfl⟩

/-! What a command does. -/

theorem hear_frame (out : List Out) (s : Site) : (out.foldl hear s).sys = s.sys ∧ (out.foldl hear s).web = s.web ∧
    (out.foldl hear s).events = s.events ++ Spec.events out ∧ (out.foldl hear s).ended = s.ended := by
  induction out generalizing s with
  | nil => exact ⟨rfl, rfl, (List.append_nil _).symm, rfl⟩
  | cons o out ih =>
    obtain ⟨h1, h2, h3, h4⟩ := ih (s.hear o)
    have : (s.hear o).sys = s.sys ∧ (s.hear o).web = s.web ∧ (s.hear o).events = s.events ++ Spec.events [o] ∧
        (s.hear o).ended = s.ended := by
      unfold hear
      cases o with
      | anchorReply r => cases s.asks <;> exact ⟨rfl, rfl, (List.append_nil _).symm, rfl⟩
      | event e => exact ⟨rfl, rfl, rfl, rfl⟩
      | send => exact ⟨rfl, rfl, (List.append_nil _).symm, rfl⟩
      | effect => exact ⟨rfl, rfl, (List.append_nil _).symm, rfl⟩
    obtain ⟨g1, g2, g3, g4⟩ := this
    refine ⟨h1.trans g1, h2.trans g2, ?_, h4.trans g4⟩
    rw [List.foldl_cons, h3, g3, List.append_assoc, ← Props.events_append]
    rfl

theorem hear_quiet {out : List Out} (h : ∀ r, Out.anchorReply r ∉ out) (s : Site) :
    (out.foldl hear s).asks = s.asks ∧ (out.foldl hear s).answers = s.answers := by
  induction out generalizing s with
  | nil => exact ⟨rfl, rfl⟩
  | cons o out ih =>
    obtain ⟨h1, h2⟩ := ih (fun r hr => h r (List.mem_cons_of_mem _ hr)) (s.hear o)
    have : (s.hear o).asks = s.asks ∧ (s.hear o).answers = s.answers := by
      cases o with
      | anchorReply r => exact absurd (List.mem_cons_self ..) (h r)
      | event e => exact ⟨rfl, rfl⟩
      | send => exact ⟨rfl, rfl⟩
      | effect => exact ⟨rfl, rfl⟩
    exact ⟨h1.trans this.1, h2.trans this.2⟩

/-- The events of a command and the devices present. -/
theorem step_present {p p' : Pica} {env : Env} {c : Command} {out : List Out} (hi : p.PInv)
    (hs : p.step env c = .ok (p', out)) (hc : ∀ m, c ≠ .createAnchor m) (hd : ∀ m, c ≠ .destroyAnchor m) (h : Nat) :
    ((Spec.events out).filterMap (evNotice h) = [] ∧ ∀ c m, Present p' h c m ↔ Present p h c m) ∨
    ∃ t, (Spec.events out).filterMap (evNotice h) = [t] ∧ h < p'.counter ∧
      (h = p.counter ∨ ∃ m, Present p h .uci m) ∧ ∀ c m, t = some (c, m) ↔ Present p' h c m := by
  obtain ⟨he, -⟩ := Props.step_said hi hs
  have hi' := Pica.step_inv hi hs
  have ha : p'.anchors = p.anchors := by
    cases Pica.step_anc hs with
    | same _ _ _ _ h1 _ => exact h1
    | known m => exact absurd rfl (hc m)
    | create m => exact absurd rfl (hc m)
    | unknown m => exact absurd rfl (hd m)
    | destroy m => exact absurd rfl (hd m)
  have same : (p'.devices.get? h).isSome = (p.devices.get? h).isSome → ∀ c m, Present p' h c m ↔ Present p h c m := by
    intro hsome c m
    cases c with
    | uci => rw [present_uci hi', present_uci hi, hsome]
    | anchor => show (∃ a, _) ↔ ∃ a, _; rw [ha]
  have moved : (c ≠ .connect) → (c ≠ .disconnect h) → (p'.devices.get? h).isSome = (p.devices.get? h).isSome := by
    intro h1 h2
    have hstep := Pica.step_dev hi hs h
    generalize p.devices.get? h = o at hstep
    generalize p'.devices.get? h = o' at hstep
    generalize effectsOf h out = e at hstep
    cases hstep with
    | move => rfl
    | connect hcc => exact absurd hcc h1
    | disconnect d hcc => exact absurd hcc h2
    | absent => rfl
  rw [he]
  cases c with
  | connect =>
    unfold Props.said
    by_cases hx : h = p.counter
    · right
      have hp' : p'.devices.get? h = some ((Device.new p.counter (Pica.deviceMac p.counter)).init.1) ∧
          p'.counter = p.counter + 1 := by
        cases hs
        refine ⟨?_, rfl⟩
        rw [hx]
        exact AMap.get?_insert_self _ _ _
      refine ⟨some (.uci, Pica.deviceMac p.counter), ?_, by omega, .inl hx, ?_⟩
      · simp [evNotice, hx]
      · intro c m
        cases c with
        | uci =>
          rw [present_uci hi', hp'.1, hx]
          simp [eq_comm]
        | anchor =>
          constructor
          · intro h; cases h
          · rintro ⟨a, h1, h2⟩
            rw [ha] at h1
            have := (hi.anc m a h1).2.1
            omega
    · left
      refine ⟨by simp [evNotice, Ne.symm hx], same ?_⟩
      cases hs
      show (AMap.get? (AMap.insert _ _ _) _).isSome = _
      rw [AMap.get?_insert, if_neg (Ne.symm hx)]
  | disconnect x =>
    unfold Props.said
    by_cases hx : x = h
    · subst hx
      change Except.ok (p.disconnect x) = _ at hs
      unfold Pica.disconnect at hs
      cases hd' : p.devices.get? x with
      | none =>
        rw [hd'] at hs
        cases hs
        exact .inl ⟨by simp [hd'], fun _ _ => Iff.rfl⟩
      | some d =>
        rw [hd'] at hs
        right
        have hm := hi.dev x d hd'
        refine ⟨none, by simp [evNotice, hd'], ?_, .inr ⟨d.macAddress, d, hd', rfl⟩, ?_⟩
        · cases hs; exact hm.2.1
        · intro c m
          refine ⟨fun h => (by cases h), fun hp => ?_⟩
          cases c with
          | uci =>
            obtain ⟨d', h1, -⟩ := hp
            cases hs
            change AMap.get? (AMap.erase _ _) _ = _ at h1
            rw [AMap.get?_erase_self] at h1
            cases h1
          | anchor =>
            obtain ⟨a, h1, h2⟩ := hp
            rw [ha] at h1
            have := (hi.anc m a h1).2.2
            rw [h2, hd'] at this
            cases this
    · left
      refine ⟨?_, same (moved (by simp) (by simp [hx]))⟩
      cases p.devices.get? x <;> simp [evNotice, hx]
  | ranging x y => exact .inl ⟨rfl, same (moved (by simp) (by simp))⟩
  | stopRanging x y => exact .inl ⟨rfl, same (moved (by simp) (by simp))⟩
  | uciPacket x y => exact .inl ⟨rfl, same (moved (by simp) (by simp))⟩
  | createAnchor m => exact absurd rfl (hc m)
  | destroyAnchor m => exact absurd rfl (hd m)

theorem ans_append (s : Site) (x : Ask × Except PicaCommandError Nat) (h : Nat) :
    (s.answers ++ [x]).filterMap (ansNotice h) = ans s h ++ (ansNotice h x).toList := by
  rw [List.filterMap_append]
  cases hx : ansNotice h x with
  | none => rw [List.filterMap_cons_none hx]; rfl
  | some t => rw [List.filterMap_cons_some hx]; rfl

/-- A command that is not for an anchor. -/
theorem agree_other {s s' : Site} {env : Env} {c : Command} {out : List Out} (hi : s.sys.pica.PInv) (ha : Agree s)
    (hs : s.sys.pica.step env c = .ok (s'.sys.pica, out)) (hc : ∀ m, c ≠ .createAnchor m)
    (hd : ∀ m, c ≠ .destroyAnchor m) (hw : s'.web = s.web) (he : s'.events = s.events ++ Spec.events out)
    (hb : s'.answers = s.answers) : Agree s' := by
  have hcount : s.sys.pica.counter ≤ s'.sys.pica.counter := Pica.step_counter hs
  have hans : ∀ h, ans s' h = ans s h := fun h => by unfold ans; rw [hb]
  have hevs : ∀ h, evs s' h = evs s h ++ (Spec.events out).filterMap (evNotice h) := fun h => by
    unfold evs; rw [he, List.filterMap_append]
  refine ha.extend hw hcount fun h => ?_
  rcases step_present hi hs hc hd h with ⟨h1, h2⟩ | ⟨t, h1, h2, h3, h4⟩
  · exact .inl ⟨by rw [hevs, h1, List.append_nil], hans h, h2⟩
  · refine .inr (.inl ⟨t, by rw [hevs, h1], ?_, h2, h4⟩)
    rw [hans]
    rcases h3 with h3 | ⟨m, h3⟩
    · by_contra hn
      have := ha.ansLt h hn
      omega
    · exact ha.uci_ans h3

/-- A command for an anchor. -/
theorem agree_anchor {s s' : Site} {out : List Out} {a : Ask} {r : Except PicaCommandError Nat} (hi : s.sys.pica.PInv)
    (ha : Agree s) (hst : Pica.AncStep s.sys.pica s'.sys.pica a.command out)
    (hr : out = [.anchorReply r]) (hw : s'.web = s.web)
    (he : s'.events = s.events) (hb : s'.answers = s.answers ++ [(a, r)]) : Agree s' := by
  have hevs : ∀ h, evs s' h = evs s h := fun h => by unfold evs; rw [he]
  have hans : ∀ h, ans s' h = ans s h ++ (ansNotice h (a, r)).toList := fun h => by
    rw [← ans_append]; unfold ans; rw [hb]
  have fails : s'.sys.pica = s.sys.pica → (∀ h, ansNotice h (a, r) = none) → Agree s' := by
    intro hp hn
    refine ha.extend hw (by rw [hp]) fun h => .inl ⟨hevs h, by rw [hans, hn]; simp, by rw [hp]; simp⟩
  obtain ⟨mac, create⟩ := a
  generalize hcc : Ask.command ⟨mac, create⟩ = cc at hst
  generalize hg' : s'.sys.pica = p' at hst
  cases hst with
  | same _ _ h1 h2 =>
    subst hcc
    cases create with
    | none => exact absurd rfl (h2 mac)
    | some => exact absurd rfl (h1 mac)
  | known m _ hp => cases hr; exact fails (hg'.trans hp) fun _ => rfl
  | unknown m _ hp => cases hr; exact fails (hg'.trans hp) fun _ => rfl
  | create m hk hp =>
    rw [← hg'] at hp
    cases hr
    cases create with
    | none => cases hcc
    | some pos =>
    cases hcc
    refine ha.extend hw (by rw [hp]; exact Nat.le_succ _) fun h => ?_
    by_cases hx : h = s.sys.pica.counter
    · refine .inr (.inr ⟨some (.anchor, mac), ?_, by rw [hans]; simp [ansNotice, hx], by rw [hp, hx]; exact Nat.lt_succ_self _, ?_⟩)
      · rw [hevs]
        by_contra hn
        have := ha.evLt h hn
        omega
      · intro c m
        cases c with
        | uci =>
          refine ⟨fun h => (by cases h), ?_⟩
          rintro ⟨d, h1, -⟩
          rw [hp] at h1
          have := (hi.dev h d h1).2.1
          omega
        | anchor =>
          constructor
          · intro heq
            cases heq
            refine ⟨⟨s.sys.pica.counter, mac⟩, ?_, hx.symm⟩
            rw [hp]
            exact AMap.get?_insert_self _ _ _
          · rintro ⟨a, h1, h2⟩
            rw [hp] at h1
            change AMap.get? (AMap.insert _ _ _) _ = _ at h1
            rw [AMap.get?_insert] at h1
            split at h1
            · rename_i hm; exact congrArg (fun x => some (Category.anchor, x)) hm
            · have := (hi.anc m a h1).2.1
              omega
    · refine .inl ⟨hevs h, by rw [hans]; simp [ansNotice, Ne.symm hx], fun c m => ?_⟩
      cases c with
      | uci => rw [hp]; exact Iff.rfl
      | anchor =>
        show (∃ a, _) ↔ ∃ a, _
        rw [hp]
        show (∃ a : Anchor, AMap.get? (AMap.insert _ _ _) _ = some a ∧ a.handle = h) ↔ ∃ a, _
        rw [AMap.get?_insert]
        split
        · rename_i hm
          subst hm
          constructor
          · rintro ⟨a, h1, h2⟩
            cases h1
            exact absurd h2 (Ne.symm hx)
          · rintro ⟨a, h1, -⟩
            have : s.sys.pica.macKnown mac = true := by
              unfold Pica.macKnown
              rw [show s.sys.pica.anchors.get? mac = some a from h1]
              rfl
            rw [hk] at this
            cases this
        · exact Iff.rfl
  | destroy m b hg hp =>
    rw [← hg'] at hp
    cases hr
    cases create with
    | some pos => cases hcc
    | none =>
    cases hcc
    have hb := hi.anc mac b hg
    refine ha.extend hw (by rw [hp]) fun h => ?_
    by_cases hx : b.handle = h
    · refine .inr (.inr ⟨none, ?_, by rw [hans]; simp [ansNotice, hx], by rw [hp, ← hx]; exact hb.2.1, ?_⟩)
      · rw [hevs]
        exact ha.anchor_evs ⟨b, hg, hx⟩
      · intro c m
        refine ⟨fun h => (by cases h), fun hpr => ?_⟩
        rw [hp] at hpr
        cases c with
        | uci =>
          obtain ⟨d, h1, -⟩ := hpr
          have h1' : s.sys.pica.devices.get? h = some d := h1
          rw [← hx, hb.2.2] at h1'
          cases h1'
        | anchor =>
          obtain ⟨a, h1, h2⟩ := hpr
          change AMap.get? (AMap.erase _ _) _ = _ at h1
          rw [AMap.get?_erase] at h1
          split at h1
          · cases h1
          · rename_i hm
            exact absurd (hi.ancInj _ _ _ _ hg h1 (hx.trans h2.symm)) hm
    · refine .inl ⟨hevs h, by rw [hans]; simp [ansNotice, hx], fun c m => ?_⟩
      cases c with
      | uci => rw [hp]; exact Iff.rfl
      | anchor =>
        show (∃ a, _) ↔ ∃ a, _
        rw [hp]
        show (∃ a : Anchor, AMap.get? (AMap.erase _ _) _ = some a ∧ a.handle = h) ↔ ∃ a, _
        rw [AMap.get?_erase]
        split
        · rename_i hm
          subst hm
          constructor
          · rintro ⟨a, h1, -⟩; cases h1
          · rintro ⟨a, h1, h2⟩
            rw [hg] at h1
            cases h1
            exact absurd h2 hx
        · exact Iff.rfl

/-! The steps of the web server. -/

theorem announce_web (w : Web) (heard : Nat → Bool) (e : WebEvent) (r : Reply)
    (h : (w.announce heard e r).1.poisoned = false) : (w.announce heard e r).1 = w := by
  unfold Web.announce at *
  split at h <;> rename_i hh
  · rw [if_pos hh]
  · cases h

theorem place_tag {mac : MacAddress} {p : Position} {m n : AMap Nat Info} {i : Info}
    (h : Web.place mac p m = some (n, i)) : AMap.keys n = AMap.keys m ∧ ∀ k, tag (n.get? k) = tag (m.get? k) := by
  induction m generalizing n i with
  | nil => cases h
  | cons x r ih =>
    obtain ⟨k, j⟩ := x
    unfold Web.place at h
    split at h
    · cases h
      refine ⟨rfl, fun y => ?_⟩
      unfold AMap.get?
      split <;> rfl
    · obtain ⟨⟨n', i'⟩, h1, h2⟩ := Option.map_eq_some_iff.mp h
      cases h2
      obtain ⟨g1, g2⟩ := ih h1
      refine ⟨by unfold AMap.keys at *; rw [List.map_cons, List.map_cons, g1], fun y => ?_⟩
      unfold AMap.get?
      split
      · rfl
      · exact g2 y

theorem setPosition_tag {w : Web} {measure : Measure} {heard : Nat → Bool} {mac : MacAddress} {p : Position}
    (h : (w.setPosition measure heard mac p).1.poisoned = false) : w.poisoned = false ∧
    AMap.keys (w.setPosition measure heard mac p).1.devices = AMap.keys w.devices ∧
    ∀ k, tag ((w.setPosition measure heard mac p).1.devices.get? k) = tag (w.devices.get? k) := by
  unfold Web.setPosition at *
  by_cases hp : w.poisoned = true
  · rw [if_pos hp] at h
    rw [show w.poisoned = false from h] at hp
    cases hp
  · simp only [if_neg hp] at *
    refine ⟨by simpa using hp, ?_⟩
    cases hpl : Web.place mac p w.devices with
    | none => exact ⟨rfl, fun _ => rfl⟩
    | some x =>
      obtain ⟨n, i⟩ := x
      obtain ⟨g1, g2⟩ := place_tag hpl
      dsimp only
      split
      · split <;> exact ⟨g1, g2⟩
      · exact ⟨g1, g2⟩

theorem step_inv {measure : Measure} {s t : Site} {l : Label} (hi : Inv s) (h : Step measure s l t) (ht : Tidy s l) :
    Inv t := by
  cases h with
  | @system l t hl hst =>
    obtain ⟨hp, hq⟩ := silent_frame hl hst
    refine ⟨System.step_inv hi.sys hst, by rw [hi.asks]; exact hq.symm, fun hw => ?_⟩
    have ha := hi.web hw
    refine Agree.same (s := s) ha ha.nodup (fun _ => rfl) (fun _ => rfl) (fun _ => rfl) ?_ ?_
    · rcases hp with hp | hp
      · show t.pica.counter = _; rw [hp]
      · show t.pica.counter = _; generalize t.pica = q at hp; cases hp <;> rfl
    · rcases hp with hp | hp
      · intro h c m; show Present t.pica _ _ _ ↔ _; rw [hp]
      · exact present_reorder hi.sys.pica hp
  | @ask a t hst =>
    refine ⟨System.step_inv hi.sys hst, ?_, fun hw => ?_⟩
    · cases hst
      show List.map _ (s.asks ++ [a]) = List.filter _ (s.sys.queue ++ [a.command])
      rw [List.map_append, List.filter_append, hi.asks, List.filter_cons_of_pos (isAnchor_command a)]
      rfl
    · have hp : t.pica = s.sys.pica := by cases hst; rfl
      have ha := hi.web hw
      refine Agree.same (s := s) ha ha.nodup (fun _ => rfl) (fun _ => rfl) (fun _ => rfl) ?_ ?_
      · show t.pica.counter = _; rw [hp]
      · intro h c m; show Present t.pica _ _ _ ↔ _; rw [hp]
  | @process c out t hst =>
    have hinv := System.step_inv hi.sys hst
    obtain ⟨f1, f2, f3, -⟩ := hear_frame out { s with sys := t }
    generalize hu : out.foldl hear { s with sys := t } = u at *
    have hq : ∃ q, s.sys.queue = c :: q ∧ t.queue = q ∧
        s.sys.pica.step (s.sys.env (s.web.estimate measure)) c = .ok (t.pica, out) := by
      generalize hev : System.env s.sys (s.web.estimate measure) = env at hst
      cases hst with
      | @process est c q p out hq hstep =>
        obtain ⟨f1, f2, -⟩ := System.applyAll_frame out { s.sys with pica := p, queue := q, spawned := s.sys.spawned + 1 }
        exact ⟨q, hq, f2, by rw [f1]; exact hstep⟩
    obtain ⟨q, hq, htq, hstep⟩ := hq
    have hpi : u.sys = t := f1
    have hwe : u.web = s.web := f2
    have hee : u.events = s.events ++ Spec.events out := f3
    have hasks := hi.asks
    rw [hq] at hasks
    by_cases hanc : isAnchor c = true
    · rw [List.filter_cons_of_pos hanc] at hasks
      obtain ⟨a, as, ha, hac, has⟩ := List.map_eq_cons_iff.mp hasks
      have hst' := Pica.step_anc hstep
      obtain ⟨r, hr⟩ : ∃ r, out = [.anchorReply r] := by
        cases hst' with
        | same _ _ h1 h2 =>
          cases c <;> first | exact absurd rfl (h1 _) | exact absurd rfl (h2 _) | cases hanc
        | known => exact ⟨_, rfl⟩
        | create => exact ⟨_, rfl⟩
        | unknown => exact ⟨_, rfl⟩
        | destroy => exact ⟨_, rfl⟩
      have hu1 : u.asks = as ∧ u.answers = s.answers ++ [(a, r)] := by
        rw [← hu, hr]
        rw [List.foldl_cons, List.foldl_nil]
        unfold hear
        dsimp only
        rw [ha]
        exact ⟨rfl, rfl⟩
      refine ⟨by rw [hpi]; exact hinv, by rw [hu1.1, hpi, htq]; exact has, fun hw => ?_⟩
      rw [hwe] at hw
      refine agree_anchor (a := a) (r := r) (out := out) hi.sys.pica (hi.web hw)
        (by rw [hpi, hac]; exact hst') hr hwe ?_ hu1.2
      rw [hee, hr]
      exact List.append_nil _
    · have h1 : ∀ m, c ≠ .createAnchor m := fun m hc => hanc (by rw [hc]; rfl)
      have h2 : ∀ m, c ≠ .destroyAnchor m := fun m hc => hanc (by rw [hc]; rfl)
      rw [List.filter_cons_of_neg hanc] at hasks
      obtain ⟨g1, g2⟩ := hear_quiet (step_unanswered hi.sys.pica hstep h1 h2) { s with sys := t }
      rw [hu] at g1 g2
      refine ⟨by rw [hpi]; exact hinv, by rw [g1, hpi, htq]; exact hasks, fun hw => ?_⟩
      rw [hwe] at hw
      exact agree_other hi.sys.pica (hi.web hw) (by rw [hpi]; exact hstep) h1 h2 hwe hee g2
  | panics => exact ⟨hi.sys, hi.asks, fun hw => ⟨(hi.web hw).1, (hi.web hw).2, (hi.web hw).3, (hi.web hw).4, (hi.web hw).5⟩⟩
  | lags => exact ⟨hi.sys, hi.asks, fun hw => ⟨(hi.web hw).1, (hi.web hw).2, (hi.web hw).3, (hi.web hw).4, (hi.web hw).5⟩⟩
  | @event e es heard hes hlen =>
    refine ⟨hi.sys, hi.asks, fun hw => ?_⟩
    change (s.web.connection heard e).1.poisoned = false at hw
    by_cases hp : s.web.poisoned = true
    · unfold Web.connection at hw
      rw [if_pos hp] at hw
      rw [show s.web.poisoned = false from hw] at hp
      cases hp
    have ha := hi.web (by simpa using hp)
    have hcons : ∀ h, evs s h = (evNotice h e).toList ++ es.filterMap (evNotice h) := by
      intro h
      unfold evs
      rw [hes]
      cases hx : evNotice h e with
      | none => rw [List.filterMap_cons_none hx]; rfl
      | some t => rw [List.filterMap_cons_some hx]; rfl
    have hk : ∃ k t, evNotice k e = some t ∧ (∀ h, h ≠ k → evNotice h e = none) ∧
        (AMap.keys (s.web.connection heard e).1.devices).Nodup ∧
        tag ((s.web.connection heard e).1.devices.get? k) = t ∧
        ∀ h, h ≠ k → (s.web.connection heard e).1.devices.get? h = s.web.devices.get? h := by
      unfold Web.connection at *
      simp only [if_neg hp] at *
      cases e with
      | connected k m =>
        dsimp only at *
        rw [announce_web _ _ _ _ hw]
        refine ⟨k, some (.uci, m), by simp [evNotice], fun h hh => by simp [evNotice, Ne.symm hh], AMap.nodup_insert ha.nodup _ _,
          ?_, fun h hh => AMap.get?_insert_of_ne hh⟩
        rw [AMap.get?_insert_self]
        rfl
      | disconnected k m =>
        dsimp only at *
        rw [announce_web _ _ _ _ hw]
        refine ⟨k, none, by simp [evNotice], fun h hh => by simp [evNotice, Ne.symm hh], AMap.nodup_erase ha.nodup _,
          ?_, fun h hh => AMap.get?_erase_of_ne hh⟩
        rw [AMap.get?_erase_self]
        rfl
    obtain ⟨k, t, h1, h2, h3, h4, h5⟩ := hk
    refine Agree.take (s := s) ha rfl h3 k t h4 h5 (fun h hh => ?_) (fun _ _ => rfl) ?_ (fun he => ?_) id
    · rw [hcons, h2 h hh]; rfl
    · rw [hcons, h1]; rfl
    · rw [hcons, h1] at he; cases he
  | @answer a r before after heard hans =>
    refine ⟨hi.sys, hi.asks, fun hw => ?_⟩
    change (answered s.web heard a r).1.poisoned = false at hw
    have hsplit : ∀ h, ans s h = before.filterMap (ansNotice h) ++ ((ansNotice h (a, r)).toList ++ after.filterMap (ansNotice h)) := by
      intro h
      unfold ans
      rw [hans, List.filterMap_append]
      cases hx : ansNotice h (a, r) with
      | none => rw [List.filterMap_cons_none hx]; rfl
      | some t => rw [List.filterMap_cons_some hx]; rfl
    have hnew : ∀ h, ans { s with answers := before ++ after, web := (answered s.web heard a r).1 } h =
        before.filterMap (ansNotice h) ++ after.filterMap (ansNotice h) := fun h => List.filterMap_append ..
    cases r with
    | error x =>
      have hsame : (answered s.web heard a (.error x)).1 = s.web := by
        unfold answered Web.created Web.destroyed
        cases a.create <;> cases x <;> rfl
      rw [hsame] at hw hnew ⊢
      refine Agree.same (s := s) (hi.web hw) (hi.web hw).nodup (fun _ => rfl) (fun _ => rfl) (fun h => ?_) rfl (fun _ _ _ => Iff.rfl)
      rw [hnew, hsplit]; rfl
    | ok k =>
      have hp : ¬ s.web.poisoned = true := by
        intro hp
        unfold answered Web.created Web.destroyed at hw
        cases hc : a.create <;> rw [hc] at hw <;> simp only [if_pos hp] at hw <;> exact absurd hp (by rw [hw]; simp)
      have ha := hi.web (by simpa using hp)
      have hk : (AMap.keys (answered s.web heard a (.ok k)).1.devices).Nodup ∧
          tag ((answered s.web heard a (.ok k)).1.devices.get? k) = a.create.map (fun _ => (.anchor, a.mac)) ∧
          ∀ h, h ≠ k → (answered s.web heard a (.ok k)).1.devices.get? h = s.web.devices.get? h := by
        unfold answered Web.created Web.destroyed at *
        cases hc : a.create with
        | none =>
          simp only [hc, if_neg hp] at *
          rw [announce_web _ _ _ _ hw]
          refine ⟨AMap.nodup_erase ha.nodup _, ?_, fun h hh => AMap.get?_erase_of_ne hh⟩
          rw [AMap.get?_erase_self]
          rfl
        | some pos =>
          simp only [hc, if_neg hp] at *
          rw [announce_web _ _ _ _ hw]
          refine ⟨AMap.nodup_insert ha.nodup _ _, ?_, fun h hh => AMap.get?_insert_of_ne hh⟩
          rw [AMap.get?_insert_self]
          rfl
      have hbefore : before.filterMap (ansNotice k) = [] := by
        rw [List.filterMap_eq_nil_iff]
        rintro ⟨b, r⟩ hb
        cases r with
        | error => rfl
        | ok j =>
          have := ht (b, .ok j) (by rw [hans, List.take_left]; exact hb)
          have hj : j ≠ k := fun e => this (by rw [e])
          simp [ansNotice, hj]
      have hself : ansNotice k (a, .ok k) = some (a.create.map fun _ => (.anchor, a.mac)) := by simp [ansNotice]
      have hne : ans s k ≠ [] := by rw [hsplit, hbefore, hself]; simp
      have hev : evs s k = [] := (ha.excl k).resolve_right hne
      refine Agree.take (s := s) ha rfl hk.1 k _ hk.2.1 hk.2.2 (fun _ _ => rfl) (fun h hh => ?_) ?_ id (fun he => absurd he hne)
      · rw [hnew, hsplit, show ansNotice h (a, .ok k) = none by simp [ansNotice, Ne.symm hh]]; rfl
      · rw [hnew, hsplit, hbefore, hself, hev]
        change _ = _ :: (evs s k ++ _)
        rw [hev]; rfl
  | @drops a r before after hans =>
    refine ⟨hi.sys, hi.asks, fun hw => ?_⟩
    cases r with
    | ok k => exact absurd ht (by simp [Tidy])
    | error x =>
      have ha := hi.web hw
      refine Agree.same (s := s) ha ha.nodup (fun _ => rfl) (fun _ => rfl) (fun h => ?_) rfl (fun _ _ _ => Iff.rfl)
      unfold ans
      rw [hans, List.filterMap_append, List.filterMap_append]
      rfl
  | @position mac p heard =>
    refine ⟨hi.sys, hi.asks, fun hw => ?_⟩
    obtain ⟨h1, h2, h3⟩ := setPosition_tag hw
    have ha := hi.web h1
    exact Agree.same (s := s) ha (by rw [h2]; exact ha.nodup) h3 (fun _ => rfl) (fun _ => rfl) rfl (fun _ _ _ => Iff.rfl)
  | @shuffle m hm =>
    refine ⟨hi.sys, hi.asks, fun hw => ?_⟩
    have ha := hi.web hw
    have hn : (AMap.keys m).Nodup := (hm.map _).nodup_iff.mpr ha.nodup
    exact Agree.same (s := s) ha hn (fun h => by rw [AMap.get?_perm ha.nodup hm]) (fun _ => rfl) (fun _ => rfl) rfl
      (fun _ _ _ => Iff.rfl)

theorem tidy_inv {measure : Measure} {ls : List Label} {s : Site} (h : TidyRun measure ls s) : Inv s := by
  induction h with
  | nil => exact inv_new
  | step _ _ _ hst ht ih => exact step_inv ih hst ht

end Site
end Pica

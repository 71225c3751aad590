import Verif.Model.System
import Verif.Proofs.Pica
/-! What a step of the event loop does to the ranging tasks. -/

set_option linter.dupNamespace false

namespace Pica
open SessionState Spec

/-- The ranging tasks spawned with their sessions. -/
def starts (es : List Effect) : List (Nat × UInt32) :=
  es.filterMap fun
    | .startTimer t sid _ => some (t, sid)
    | _ => none

theorem starts_append (a b : List Effect) : starts (a ++ b) = starts a ++ starts b := List.filterMap_append

theorem started_starts (es : List Effect) : started es = (starts es).map Prod.fst := by
  induction es with
  | nil => rfl
  | cons e es ih =>
    rw [show ∀ (a : Effect) l, a :: l = [a] ++ l from fun _ _ => rfl, started_append, starts_append, List.map_append, ih]
    cases e <;> rfl

theorem starts_nil {es : List Effect} (h : started es = []) : starts es = [] := by
  rw [started_starts] at h
  exact List.map_eq_nil_iff.mp h

/-- The ranging task of a session. -/
def Device.task (d : Device) (sid : UInt32) : Option Nat := (d.session sid).bind (·.rangingTask)

theorem sessMove_starts {tid dh : Nat} {sid : UInt32} {k : Kind} {o o' : Option Session} {es : List Effect}
    (h : SessMove tid sid dh k o es o') : starts es = [] ∨ starts es = [(tid, sid)] := by
  rcases sessMove_timers h with ⟨h1, -⟩ | ⟨h1, -⟩ | ⟨h1, -⟩
  · exact .inl (starts_nil h1)
  · cases h with
    | start s _ _ => exact .inr rfl
    | replace s ty hst => rw [(drop_obs s).2.2.1] at h1; cases h1
    | replaceActive s ty hst => rw [(drop_obs s).2.2.1] at h1; cases h1
    | remove s hst => rw [(drop_obs s).2.2.1] at h1; cases h1
    | removeActive s hst => rw [(drop_obs s).2.2.1] at h1; cases h1
    | multicast s es dst hst hb hd => exact .inl (starts_nil (benign_obs hb).2.2.1)
    | emptiedIdle s es hst hb => exact .inl (starts_nil (benign_obs hb).2.2.1)
    | emptiedActive s es hst hb =>
      rw [starts_append, starts_nil (benign_obs hb).2.2.1]; exact .inl rfl
    | stop s r _ _ => rw [started_append, started_abort] at h1; cases h1
    | _ => exact .inl rfl
  · exact .inl (starts_nil h1)

/-- What the tasks of a device become. -/
structure TaskMove (tid : Nat) (old : UInt32 → Option Nat) (e : List Effect) (new : UInt32 → Option Nat) : Prop where
  one : starts e = [] ∨ ∃ sid, starts e = [(tid, sid)] ∧ aborted e = []
  own : ∀ t ∈ aborted e, ∃ sid, old sid = some t
  task : (∀ a b t, old a = some t → old b = some t → a = b) →
    ∀ sid t, new sid = some t ↔ (old sid = some t ∧ t ∉ aborted e) ∨ (t, sid) ∈ starts e

theorem TaskMove.none {tid : Nat} {f : UInt32 → Option Nat} : TaskMove tid f [] f :=
  ⟨.inl rfl, (by intro t ht; cases ht), fun _ sid t => by simp [aborted, starts]⟩

theorem dropSessions_tasks {d : Device} (hn : (AMap.keys d.sessions).Nodup) (t : Nat) :
    t ∈ aborted d.dropSessions ↔ ∃ sid, d.task sid = some t := by
  rw [aborted_dropSessions]
  constructor
  · intro h
    obtain ⟨s, hs, ht⟩ := List.mem_flatMap.mp h
    obtain ⟨e, he, rfl⟩ := List.mem_map.mp hs
    refine ⟨e.1, ?_⟩
    unfold Device.task Device.session
    rw [AMap.get?_of_mem hn (k := e.1) (v := e.2) he]
    simpa using ht
  · rintro ⟨sid, h⟩
    unfold Device.task Device.session at h
    obtain ⟨s, hs, ht⟩ := Option.bind_eq_some_iff.mp h
    exact List.mem_flatMap.mpr ⟨s, List.mem_map.mpr ⟨(sid, s), AMap.mem_of_get? hs, rfl⟩, by simp [ht]⟩

theorem devMove_tasks {tid : Nat} {sc : Scope} {d d' : Device} {e : List Effect} (hi : DevInv d)
    (h : DevMove tid sc d e d') : TaskMove tid d.task e d'.task := by
  cases h with
  | reset hx =>
    have hs : started d.coreDeviceReset.2.2 = [] := by
      rw [reset_effects, started_append, started_dropSessions]; rfl
    have ha : ∀ t, t ∈ aborted d.coreDeviceReset.2.2 ↔ ∃ sid, d.task sid = some t := fun t => by
      rw [reset_effects, aborted_append, ← dropSessions_tasks hi.nodup]
      simp [aborted]
    have hnew : ∀ sid, d.coreDeviceReset.1.task sid = none := fun sid => by
      rw [reset_eq]; unfold Device.init; rw [Device.setState_eq]; rfl
    refine ⟨.inl (starts_nil hs), fun t ht => (ha t).mp ht, fun _ sid t => ?_⟩
    rw [hnew, starts_nil hs, ha]
    simp only [reduceCtorEq, List.not_mem_nil, or_false, false_iff]
    rintro ⟨h1, h2⟩
    exact h2 ⟨sid, h1⟩
  | session sid k es ed _ o n st hs hc he hl hsc hlk =>
    have hed := countMove_obs hc
    have h1 : starts e = starts es := by
      rcases he with rfl | rfl <;> rw [starts_append, starts_nil hed.2.2.1] <;> simp
    have h2 : aborted e = aborted es := by
      rcases he with rfl | rfl <;> rw [aborted_append, hed.2.2.2] <;> simp
    have hnew : ∀ x, Device.task { d with sessions := d.sessions.put sid o, nActive := n, state := st } x =
        if sid = x then o.bind (·.rangingTask) else d.task x := fun x => by
      unfold Device.task Device.session
      rw [AMap.get?_put]
      split <;> rfl
    have hst := sessMove_starts hs
    rw [show TaskMove tid d.task e (Device.task { d with sessions := d.sessions.put sid o, nActive := n, state := st }) =
      TaskMove tid d.task e (fun x => if sid = x then o.bind (·.rangingTask) else d.task x) from by
        rw [funext hnew]]
    have hold : d.task sid = (d.session sid).bind (·.rangingTask) := rfl
    rcases sessMove_timers hs with ⟨t1, t2, t3⟩ | ⟨t1, t2, t3, t4⟩ | ⟨t1, t2, t3⟩
    · refine ⟨.inl (h1 ▸ starts_nil t1), (by intro t ht; rw [h2, t2] at ht; cases ht), fun _ x t => ?_⟩
      rw [h1, starts_nil t1, h2, t2]
      by_cases hx : sid = x
      · subst hx; simp [t3, hold]
      · simp [hx]
    · have hstart : starts es = [(tid, sid)] := by
        rcases hst with h | h
        · rw [started_starts, h] at t1; cases t1
        · exact h
      refine ⟨.inr ⟨sid, h1.trans hstart, h2.trans t2⟩, (by intro t ht; rw [h2, t2] at ht; cases ht), fun _ x t => ?_⟩
      rw [h1, hstart, h2, t2]
      by_cases hx : sid = x
      · subst hx; simp [t4, hold, t3, eq_comm]
      · have : ¬x = sid := fun h => hx h.symm
        simp [hx, this]
    · refine ⟨.inl (h1 ▸ starts_nil t1), ?_, fun hinj x t => ?_⟩
      · intro t ht
        rw [h2, t2] at ht
        exact ⟨sid, by rw [hold]; simpa using ht⟩
      · rw [h1, starts_nil t1, h2, t2]
        by_cases hx : sid = x
        · subst hx
          simp only [if_true, t3, reduceCtorEq, List.not_mem_nil, or_false, false_iff]
          rintro ⟨g1, g2⟩
          apply g2
          rw [hold] at g1
          simp [g1]
        · simp only [hx, if_false, List.not_mem_nil, or_false]
          constructor
          · intro g
            refine ⟨g, fun hm => hx (hinj sid x t ?_ g)⟩
            rw [hold]; simpa using hm
          · exact fun g => g.1
  | config c cc hcc => exact .none
  | reorder l hp =>
    have : Device.task { d with sessions := l } = d.task := funext fun x => by
      unfold Device.task Device.session
      rw [show ({ d with sessions := l } : Device).sessions = l from rfl, AMap.get?_perm hi.nodup hp]
    rw [this]
    exact .none

namespace Pica

/-- The ranging task of a session of a device that may be absent. -/
def taskAt (p : Pica) (h : Nat) (sid : UInt32) : Option Nat := (p.devices.get? h).bind (·.task sid)

theorem step_taskMove {p p' : Pica} {env : Env} {c : Command} {out : List Out} (hi : PInv p)
    (h : p.step env c = .ok (p', out)) (x : Nat) : TaskMove env.tid (p.taskAt x) (effectsOf x out) (p'.taskAt x) := by
  have hs := step_dev hi h x
  unfold taskAt
  generalize hg : p.devices.get? x = o at hs
  generalize p'.devices.get? x = o' at hs
  generalize effectsOf x out = e at hs
  cases hs with
  | move d d' e hm => exact devMove_tasks (hi.dev x d hg).2.2.2 hm
  | connect _ _ =>
    have h2 : (fun sid => (some (Device.new x (deviceMac x)).init.1).bind (·.task sid)) =
        fun sid => (none : Option Device).bind (·.task sid) := funext fun sid => by
      unfold Device.init; rw [Device.setState_eq]; rfl
    refine ⟨.inl rfl, (by intro t ht; cases ht), fun _ sid t => ?_⟩
    rw [congrFun h2 sid]
    simp [starts]
  | disconnect d _ =>
    have hn := (hi.dev x d hg).2.2.2.nodup
    have hst := starts_nil (started_dropSessions d)
    refine ⟨.inl hst, fun t ht => (dropSessions_tasks hn t).mp ht, fun _ sid t => ?_⟩
    rw [hst]
    constructor
    · intro h; cases h
    · rintro (⟨h1, h2⟩ | h)
      · exact absurd ((dropSessions_tasks hn t).mpr ⟨sid, h1⟩) h2
      · cases h
  | absent => exact .none

end Pica

/-- The ranging tasks a step spawns: the task, the device and the session. -/
def startsOut (out : List Out) : List (Nat × Nat × UInt32) :=
  out.filterMap fun
    | .effect h (.startTimer t sid _) => some (t, h, sid)
    | _ => none

/-- The ranging tasks a step aborts. -/
def abortsOut (out : List Out) : List Nat :=
  out.filterMap fun
    | .effect _ (.abortTimer t) => some t
    | _ => none

theorem startsOut_append (a b : List Out) : startsOut (a ++ b) = startsOut a ++ startsOut b := List.filterMap_append
theorem abortsOut_append (a b : List Out) : abortsOut (a ++ b) = abortsOut a ++ abortsOut b := List.filterMap_append

theorem mem_startsOut {out : List Out} {t h : Nat} {sid : UInt32} :
    (t, h, sid) ∈ startsOut out ↔ (t, sid) ∈ starts (effectsOf h out) := by
  induction out with
  | nil => simp [startsOut, starts, effectsOf]
  | cons o out ih =>
    rw [show ∀ (a : Out) l, a :: l = [a] ++ l from fun _ _ => rfl, startsOut_append, effectsOf_append, starts_append,
      List.mem_append, List.mem_append, ih]
    refine or_congr_left ?_
    cases o with
    | effect h' e =>
      by_cases hh : h' = h
      · subst hh; cases e <;> simp [startsOut, starts, effectsOf]
      · have : ¬h = h' := fun e => hh e.symm
        cases e <;> simp [startsOut, starts, effectsOf, hh, this]
    | _ => simp [startsOut, starts, effectsOf]

theorem mem_abortsOut {out : List Out} {t : Nat} : t ∈ abortsOut out ↔ ∃ h, t ∈ aborted (effectsOf h out) := by
  induction out with
  | nil => simp [abortsOut, aborted, effectsOf]
  | cons o out ih =>
    rw [show ∀ (a : Out) l, a :: l = [a] ++ l from fun _ _ => rfl, abortsOut_append, List.mem_append, ih]
    simp only [effectsOf_append, aborted_append, List.mem_append, exists_or]
    refine or_congr_left ?_
    cases o with
    | effect h' e =>
      constructor
      · intro h
        refine ⟨h', ?_⟩
        cases e <;> simp_all [abortsOut, aborted, effectsOf]
      · rintro ⟨x, hx⟩
        by_cases hh : h' = x
        · subst hh; cases e <;> simp_all [abortsOut, aborted, effectsOf]
        · simp [effectsOf, hh, aborted] at hx
    | _ =>
      constructor
      · intro h; cases h
      · rintro ⟨_, h⟩; cases h

theorem startsOut_map (h : Nat) (es : List Effect) :
    startsOut (es.map (.effect h)) = (starts es).map fun x => (x.1, h, x.2) := by
  induction es with
  | nil => rfl
  | cons e es ih =>
    rw [List.map_cons, show ∀ (a : Out) l, a :: l = [a] ++ l from fun _ _ => rfl, startsOut_append, ih,
      show ∀ (a : Effect) l, a :: l = [a] ++ l from fun _ _ => rfl, starts_append, List.map_append]
    cases e <;> rfl

theorem abortsOut_map (h : Nat) (es : List Effect) : abortsOut (es.map (.effect h)) = aborted es := by
  induction es with
  | nil => rfl
  | cons e es ih =>
    rw [List.map_cons, show ∀ (a : Out) l, a :: l = [a] ++ l from fun _ _ => rfl, abortsOut_append, ih,
      show ∀ (a : Effect) l, a :: l = [a] ++ l from fun _ _ => rfl, aborted_append]
    cases e <;> rfl

theorem startsOut_nil {out : List Out} (h : ∀ x, starts (effectsOf x out) = []) : startsOut out = [] := by
  apply List.eq_nil_iff_forall_not_mem.mpr
  rintro ⟨t, x, sid⟩ hm
  rw [mem_startsOut, h] at hm
  cases hm

theorem stopInBand_starts (d : Device) (mac : MacAddress) (sid : UInt32) : starts (d.stopInBand mac sid).2 = [] := by
  unfold Device.stopInBand
  split
  · rfl
  · rename_i s _
    split
    · rfl
    · split
      · have h1 : starts s.stopRangingTask.2 = [] := by unfold Session.stopRangingTask; split <;> rfl
        have h2 : ∀ (x : Session) st r, starts (x.setState st r).2 = [] := fun x st r => by
          unfold Session.setState; split <;> rfl
        have h3 : ∀ (x : Device) st, starts (x.setState st).2 = [] := fun x st => by
          unfold Device.setState; split <;> rfl
        simp only [starts_append, h1, h2, List.nil_append]
        split
        · exact h3 _ _
        · rfl
      · rfl

namespace Pica

/-- Only packets of the hosts spawn ranging tasks. -/
theorem step_noStarts {p p' : Pica} {env : Env} {c : Command} {out : List Out} (hi : PInv p)
    (h : p.step env c = .ok (p', out)) (hc : ∀ y b, c ≠ .uciPacket y b) : startsOut out = [] := by
  cases c with
  | uciPacket y pkt => exact absurd rfl (hc y pkt)
  | stopRanging mac sid =>
    refine (startsOut_nil fun x => ?_)
    cases h
    rw [effectsOf_flatMap hi.devNodup (fun d => (d.stopInBand mac sid).2)]
    cases p.devices.get? x with
    | none => rfl
    | some d => exact stopInBand_starts d mac sid
  | connect =>
    change Except.ok p.addDevice = _ at h
    have ho : out = [.effect p.counter (.notify 5 (.coreDeviceStatus .deviceStateReady)),
        .event (.connected p.counter (deviceMac p.counter))] := (congrArg Prod.snd (Except.ok.inj h)).symm
    rw [ho]; rfl
  | disconnect y =>
    refine (startsOut_nil fun x => ?_)
    have hs := step_dev hi h x
    generalize p.devices.get? x = o at hs
    generalize p'.devices.get? x = o' at hs
    change Except.ok (p.disconnect y) = _ at h
    unfold disconnect at h
    cases hg : p.devices.get? y with
    | none => rw [hg] at h; cases h; rfl
    | some d =>
      rw [hg] at h; cases h
      show starts (effectsOf x ([Out.event _] ++ List.map _ _)) = []
      rw [effectsOf_append, effectsOf_map, effectsOf_event, List.nil_append]
      split
      · exact starts_nil (started_dropSessions d)
      · rfl
  | ranging y sid =>
    refine (startsOut_nil fun x => ?_)
    obtain ⟨d, s, ms, ms', ts, o₁, hd, hs, -, -, ho, hc⟩ := ranging_ok h
    rcases hc with ⟨-, -, rfl, -, rfl⟩ | ⟨-, rfl, rfl⟩
    · rw [effectsOf_append, plain_dataSends ho]; rfl
    · rw [plain_dataSends ho]; rfl
  | createAnchor mac =>
    cases step_anc h with
    | same _ _ hc => exact absurd rfl (hc mac)
    | known => rfl
    | create => rfl
  | destroyAnchor mac =>
    cases step_anc h with
    | same _ _ _ hc => exact absurd rfl (hc mac)
    | unknown => rfl
    | destroy => rfl

/-- A step spawns at most one task, and then aborts none. -/
theorem step_one {p p' : Pica} {env : Env} {c : Command} {out : List Out} (hi : PInv p)
    (h : p.step env c = .ok (p', out)) :
    startsOut out = [] ∨ ∃ x sid, startsOut out = [(env.tid, x, sid)] ∧ abortsOut out = [] := by
  cases c with
  | uciPacket y pkt =>
    have ht := step_taskMove hi h y
    change p.uciPacket env y pkt = _ at h
    unfold uciPacket at h
    cases hg : p.devices.get? y with
    | none => rw [hg] at h; cases h; exact .inl rfl
    | some d =>
      rw [hg] at h
      cases hr : d.receivePacket env.tid pkt with
      | error z => simp only [hr] at h; cases h
      | ok z =>
        obtain ⟨d', r, e⟩ := z
        simp only [hr] at h
        cases h
        have he : effectsOf y ((r.map (Out.send y)).toList ++ e.map (.effect y)) = e := by
          rw [effectsOf_append, effectsOf_map, if_pos rfl]
          cases r <;> rfl
        rw [he] at ht
        rw [startsOut_append, abortsOut_append, startsOut_map, abortsOut_map]
        have hr1 : startsOut (r.map (Out.send y)).toList = [] := by cases r <;> rfl
        have hr2 : abortsOut (r.map (Out.send y)).toList = [] := by cases r <;> rfl
        rw [hr1, hr2, List.nil_append, List.nil_append]
        rcases ht.one with h0 | ⟨sid, h0, h1⟩
        · rw [h0]; exact .inl rfl
        · rw [h0]; exact .inr ⟨y, sid, rfl, h1⟩
  | _ => exact .inl (step_noStarts hi h (by simp))

/-- What the tasks become. -/
theorem step_tasks {p p' : Pica} {env : Env} {c : Command} {out : List Out} (hi : PInv p)
    (h : p.step env c = .ok (p', out))
    (hinj : ∀ x y a b t, p.taskAt x a = some t → p.taskAt y b = some t → x = y ∧ a = b) (x : Nat) (sid : UInt32) (t : Nat) :
    p'.taskAt x sid = some t ↔ (p.taskAt x sid = some t ∧ t ∉ abortsOut out) ∨ (t, x, sid) ∈ startsOut out := by
  have hx := step_taskMove hi h x
  rw [hx.task (fun a b t h1 h2 => (hinj x x a b t h1 h2).2) sid t, mem_startsOut]
  refine or_congr_left (and_congr_right fun hold => not_congr ?_)
  rw [mem_abortsOut]
  constructor
  · exact fun hm => ⟨x, hm⟩
  · rintro ⟨y, hy⟩
    obtain ⟨b, hb⟩ := (step_taskMove hi h y).own t hy
    rw [(hinj x y sid b t hold hb).1]
    exact hy

end Pica

namespace System

theorem apply_frame (s : System) (o : Out) : (s.apply o).pica = s.pica ∧ (s.apply o).queue = s.queue ∧
    (s.apply o).spawned = s.spawned ∧ (s.apply o).stopped = s.stopped := by
  unfold apply
  split <;> exact ⟨rfl, rfl, rfl, rfl⟩

theorem applyAll_frame (out : List Out) (s : System) : (out.foldl apply s).pica = s.pica ∧
    (out.foldl apply s).queue = s.queue ∧ (out.foldl apply s).spawned = s.spawned ∧
    (out.foldl apply s).stopped = s.stopped := by
  induction out generalizing s with
  | nil => exact ⟨rfl, rfl, rfl, rfl⟩
  | cons o out ih =>
    obtain ⟨h1, h2, h3, h4⟩ := ih (s.apply o)
    obtain ⟨g1, g2, g3, g4⟩ := apply_frame s o
    exact ⟨h1.trans g1, h2.trans g2, h3.trans g3, h4.trans g4⟩

theorem applyAll_starts {out : List Out} (h : abortsOut out = []) (s : System) :
    (out.foldl apply s).timers = s.timers ++ (startsOut out).map fun x => ⟨x.1, x.2.1, x.2.2, false⟩ := by
  induction out generalizing s with
  | nil => simp [startsOut]
  | cons o out ih =>
    rw [show ∀ (a : Out) l, a :: l = [a] ++ l from fun _ _ => rfl, abortsOut_append, List.append_eq_nil_iff] at h
    rw [List.foldl_cons, ih h.2, show ∀ (a : Out) l, a :: l = [a] ++ l from fun _ _ => rfl, startsOut_append, List.map_append,
      ← List.append_assoc]
    congr 1
    cases o with
    | effect x e =>
      cases e with
      | abortTimer t => cases h.1
      | startTimer t sid i => rfl
      | _ => exact (List.append_nil _).symm
    | event e => cases e <;> exact (List.append_nil _).symm
    | _ => exact (List.append_nil _).symm

/-- A timer after the abortion of some tasks. -/
def markAll (l : List Nat) (x : Timer) : Timer := if x.id ∈ l then { x with aborted := true } else x

theorem markAll_nil : markAll [] = id := by funext x; simp [markAll]

theorem markAll_append (a b : List Nat) (x : Timer) : markAll b (markAll a x) = markAll (a ++ b) x := by
  unfold markAll
  by_cases h1 : x.id ∈ a <;> by_cases h2 : x.id ∈ b <;> simp [h1, h2]

theorem applyAll_aborts {out : List Out} (h : startsOut out = []) (s : System) :
    (out.foldl apply s).timers = s.timers.map (markAll (abortsOut out)) := by
  induction out generalizing s with
  | nil => simp [abortsOut, markAll_nil]
  | cons o out ih =>
    rw [show ∀ (a : Out) l, a :: l = [a] ++ l from fun _ _ => rfl, startsOut_append, List.append_eq_nil_iff] at h
    rw [List.foldl_cons, ih h.2, show ∀ (a : Out) l, a :: l = [a] ++ l from fun _ _ => rfl, abortsOut_append]
    have hone : (s.apply o).timers = s.timers.map (markAll (abortsOut [o])) := by
      have hid : abortsOut [o] = [] → (s.apply o).timers = s.timers → (s.apply o).timers = s.timers.map (markAll (abortsOut [o])) := by
        intro h1 h2; rw [h1, h2, markAll_nil, List.map_id]
      cases o with
      | effect x e =>
        cases e with
        | abortTimer t =>
          show s.timers.map (mark t) = _
          congr 1
          funext y
          simp [mark, markAll, abortsOut]
        | startTimer t sid i => cases h.1
        | _ => exact hid rfl rfl
      | event e => cases e <;> exact hid rfl rfl
      | _ => exact hid rfl rfl
    rw [hone, List.map_map]
    congr 1
    funext x
    exact markAll_append _ _ _

/-- What holds of every reachable system. -/
structure Inv (s : System) : Prop where
  pica : s.pica.PInv
  ids : (s.timers.map (·.id)).Nodup
  bound : ∀ t ∈ s.timers, t.id < s.spawned
  live : ∀ h sid t, (⟨t, h, sid, false⟩ : Timer) ∈ s.timers ↔ s.pica.taskAt h sid = some t
  queue : s.queue.length ≤ queueSize

theorem unique {l : List Timer} (hn : (l.map (·.id)).Nodup) {x y : Timer} (hx : x ∈ l) (hy : y ∈ l) (h : x.id = y.id) :
    x = y := List.inj_on_of_nodup_map hn hx hy h

theorem Inv.inj {s : System} (hi : Inv s) : ∀ x y a b t, s.pica.taskAt x a = some t → s.pica.taskAt y b = some t →
    x = y ∧ a = b := by
  intro x y a b t h1 h2
  have := unique hi.ids ((hi.live x a t).mpr h1) ((hi.live y b t).mpr h2) rfl
  injection this with _ h3 h4
  exact ⟨h3, h4⟩

theorem inv_new : Inv new :=
  ⟨Pica.pinv_new, List.nodup_nil, (by intro t ht; cases ht), (by intro h sid t; exact ⟨(fun h => by cases h), (fun h => by cases h)⟩),
    Nat.zero_le _⟩

theorem mem_mark {A : List Nat} {l : List Timer} {t h : Nat} {sid : UInt32} :
    (⟨t, h, sid, false⟩ : Timer) ∈ l.map (markAll A) ↔ (⟨t, h, sid, false⟩ : Timer) ∈ l ∧ t ∉ A := by
  rw [List.mem_map]
  constructor
  · rintro ⟨⟨t', h', sid', b⟩, hm, he⟩
    unfold markAll at he
    dsimp only at he
    split at he
    · cases he
    · rename_i hx; cases he; exact ⟨hm, hx⟩
  · rintro ⟨hm, hx⟩
    exact ⟨_, hm, by simp [markAll, hx]⟩

theorem taskAt_reorder {p q : Pica} (hi : p.PInv) (h : p.Reorder q) (x : Nat) (sid : UInt32) : q.taskAt x sid = p.taskAt x sid := by
  unfold Pica.taskAt
  rcases (Pica.reorder_dev hi h).2.2.2 x with e | ⟨d, l, hd, hp, hq⟩
  · rw [e]
  · rw [hd, hq]
    show Device.task _ _ = Device.task _ _
    unfold Device.task Device.session
    rw [show ({ d with sessions := l } : Device).sessions = l from rfl, AMap.get?_perm (hi.dev x d hd).2.2.2.nodup hp]

theorem step_inv {s u : System} {l : Label} (hi : Inv s) (h : Step s l u) : Inv u := by
  have hroom : ∀ c, s.Room → (s.queue ++ [c]).length ≤ queueSize := fun c hr => by
    rw [List.length_append]; exact hr
  cases h with
  | request _ hr => exact ⟨hi.pica, hi.ids, hi.bound, hi.live, hroom _ hr⟩
  | packet _ hr => exact ⟨hi.pica, hi.ids, hi.bound, hi.live, hroom _ hr⟩
  | closes _ => exact ⟨hi.pica, hi.ids, hi.bound, hi.live, hi.queue⟩
  | fails _ => exact ⟨hi.pica, hi.ids, hi.bound, hi.live, hi.queue⟩
  | leaves _ hr => exact ⟨hi.pica, hi.ids, hi.bound, hi.live, hroom _ hr⟩
  | tick _ hr => exact ⟨hi.pica, hi.ids, hi.bound, hi.live, hroom _ hr⟩
  | @dies t ht ha =>
    refine ⟨hi.pica, hi.ids.sublist (List.erase_sublist.map _), fun x hx => hi.bound x (List.mem_of_mem_erase hx), fun x sid a => ?_, hi.queue⟩
    rw [← hi.live]
    have hne : (⟨a, x, sid, false⟩ : Timer) ≠ t := by rintro rfl; cases ha
    exact List.mem_erase_of_ne hne
  | inBand _ hr => exact ⟨hi.pica, hi.ids, hi.bound, hi.live, hroom _ hr⟩
  | notifies _ => exact ⟨hi.pica, hi.ids, hi.bound, hi.live, hi.queue⟩
  | panics hq _ =>
    refine ⟨hi.pica, hi.ids, hi.bound, hi.live, ?_⟩
    have := hi.queue
    rw [hq] at this
    exact Nat.le_of_succ_le this
  | shuffle hr =>
    exact ⟨Pica.reorder_inv hi.pica hr, hi.ids, hi.bound, fun x sid t => by rw [hi.live, taskAt_reorder hi.pica hr], hi.queue⟩
  | @process est c q p out hq hstep =>
    obtain ⟨f1, f2, f3, -⟩ := applyAll_frame out { s with pica := p, queue := q, spawned := s.spawned + 1 }
    have htasks := Pica.step_tasks hi.pica hstep hi.inj
    have hlen : (out.foldl apply { s with pica := p, queue := q, spawned := s.spawned + 1 }).queue.length ≤ queueSize := by
      rw [f2]
      have := hi.queue
      rw [hq] at this
      exact Nat.le_of_succ_le this
    rcases Pica.step_one hi.pica hstep with h0 | ⟨x, sid, h0, h1⟩
    · have ht := applyAll_aborts h0 { s with pica := p, queue := q, spawned := s.spawned + 1 }
      refine ⟨by rw [f1]; exact Pica.step_inv hi.pica hstep, ?_, ?_, ?_, hlen⟩
      · rw [ht, List.map_map, show ((fun t : Timer => t.id) ∘ markAll (abortsOut out)) = fun t => t.id from ?_]
        · exact hi.ids
        · funext y; simp only [Function.comp, markAll]; split <;> rfl
      · intro y hy
        rw [ht] at hy
        obtain ⟨z, hz, rfl⟩ := List.mem_map.mp hy
        have := hi.bound z hz
        rw [f3]
        unfold markAll
        split
        · exact Nat.lt_succ_of_lt this
        · exact Nat.lt_succ_of_lt this
      · intro y b t
        rw [ht, mem_mark, f1, htasks, h0, hi.live]
        simp
    · have ht := applyAll_starts h1 { s with pica := p, queue := q, spawned := s.spawned + 1 }
      rw [h0] at ht
      have ht' : (out.foldl apply { s with pica := p, queue := q, spawned := s.spawned + 1 }).timers =
          s.timers ++ [⟨s.spawned, x, sid, false⟩] := ht
      refine ⟨by rw [f1]; exact Pica.step_inv hi.pica hstep, ?_, ?_, ?_, hlen⟩
      · rw [ht', List.map_append, List.nodup_append]
        refine ⟨hi.ids, List.nodup_singleton _, ?_⟩
        intro a ha b hb hab
        obtain ⟨y, hy, rfl⟩ := List.mem_map.mp ha
        have := hi.bound y hy
        rw [List.map_cons, List.map_nil, List.mem_singleton] at hb
        have hb' : b = s.spawned := hb
        omega
      · intro y hy
        rw [ht', List.mem_append, List.mem_singleton] at hy
        rw [f3]
        show y.id < s.spawned + 1
        rcases hy with hy | rfl
        · exact Nat.lt_succ_of_lt (hi.bound y hy)
        · exact Nat.lt_succ_self _
      · intro y b t
        rw [ht', List.mem_append, f1, htasks, h0, h1, hi.live]
        simp [System.env]

theorem run_inv {s u : System} {ls : List Label} (hi : Inv s) (h : Run s ls u) : Inv u := by
  induction h with
  | nil => exact hi
  | step _ _ hs ih => exact step_inv ih hs

theorem reachable_inv {s : System} (h : Reachable s) : Inv s := by
  obtain ⟨ls, h⟩ := h
  exact run_inv inv_new h

end System
end Pica

import Verif.Proofs.Device
import Verif.Spec.Life
/-! The invariant of a device and what a move does to states, notifications and timers. -/

namespace Pica
open SessionState Spec

/-! ### Observations -/

@[simp] theorem statusNtfs_nil (sid : UInt32) : statusNtfs sid [] = [] := rfl
@[simp] theorem statusNtfs_append (sid : UInt32) (a b : List Effect) :
    statusNtfs sid (a ++ b) = statusNtfs sid a ++ statusNtfs sid b := List.filterMap_append
@[simp] theorem deviceNtfs_nil : deviceNtfs [] = [] := rfl
@[simp] theorem deviceNtfs_append (a b : List Effect) : deviceNtfs (a ++ b) = deviceNtfs a ++ deviceNtfs b :=
  List.filterMap_append
@[simp] theorem started_nil : started [] = [] := rfl
@[simp] theorem started_append (a b : List Effect) : started (a ++ b) = started a ++ started b := List.filterMap_append
@[simp] theorem aborted_nil : aborted [] = [] := rfl
@[simp] theorem aborted_append (a b : List Effect) : aborted (a ++ b) = aborted a ++ aborted b := List.filterMap_append

@[simp] theorem statusNtfs_status (sid id : UInt32) (n : Nat) (st : SessionState) (r : UInt8) :
    statusNtfs sid [.notify n (.sessionStatus id st r)] = if id = sid then [st] else [] := by
  unfold statusNtfs
  by_cases h : id = sid <;> simp [h]
@[simp] theorem deviceNtfs_status (id : UInt32) (n : Nat) (st : SessionState) (r : UInt8) :
    deviceNtfs [.notify n (.sessionStatus id st r)] = [] := rfl
@[simp] theorem started_notify (n : Nat) (x : Ntf) : started [.notify n x] = [] := rfl
@[simp] theorem aborted_notify (n : Nat) (x : Ntf) : aborted [.notify n x] = [] := rfl

@[simp] theorem statusNtfs_abort (sid : UInt32) (o : Option Nat) : statusNtfs sid (o.toList.map .abortTimer) = [] := by
  cases o <;> rfl
@[simp] theorem deviceNtfs_abort (o : Option Nat) : deviceNtfs (o.toList.map .abortTimer) = [] := by cases o <;> rfl
@[simp] theorem started_abort (o : Option Nat) : started (o.toList.map .abortTimer) = [] := by cases o <;> rfl
@[simp] theorem aborted_abort (o : Option Nat) : aborted (o.toList.map .abortTimer) = o.toList := by cases o <;> rfl

theorem benign_obs {sid : UInt32} {es : List Effect} (h : Benign sid es) :
    (∀ x, statusNtfs x es = []) ∧ deviceNtfs es = [] ∧ started es = [] ∧ aborted es = [] := by
  refine ⟨fun x => ?_, ?_, ?_, ?_⟩
  all_goals
    apply List.filterMap_eq_nil_iff.mpr
    intro a ha
    rcases h a ha with ⟨_, _, rfl⟩ | ⟨_, rfl⟩ <;> rfl

theorem drop_obs (s : Session) : (∀ x, statusNtfs x s.drop =
      if s.id = x ∧ s.state ≠ sessionStateDeinit then [sessionStateDeinit] else []) ∧
    deviceNtfs s.drop = [] ∧ started s.drop = [] ∧ aborted s.drop = s.rangingTask.toList := by
  rw [Session.drop_eq]
  refine ⟨fun x => ?_, ?_, ?_, ?_⟩
  · rw [statusNtfs_append, statusNtfs_abort, List.nil_append]
    by_cases h : s.state = sessionStateDeinit <;> by_cases h' : s.id = x <;> simp [h, h']
  · rw [deviceNtfs_append, deviceNtfs_abort, List.nil_append]; split <;> simp
  · rw [started_append, started_abort, List.nil_append]; split <;> simp
  · rw [aborted_append, aborted_abort]; split <;> simp

@[simp] theorem stateNtf_obs (a b : DeviceState) : (∀ x, statusNtfs x (stateNtf a b) = []) ∧
    deviceNtfs (stateNtf a b) = (if b = a then [] else [b]) ∧ started (stateNtf a b) = [] ∧
    aborted (stateNtf a b) = [] := by
  unfold stateNtf
  split <;> refine ⟨fun _ => rfl, rfl, rfl, rfl⟩

/-! ### Sessions -/

/-- State of an optional session. -/
def stOf (o : Option Session) : SessionState :=
  match o with
  | some s => s.state
  | none => sessionStateDeinit

theorem stateOf_eq (d : Device) (sid : UInt32) : stateOf d sid = stOf (d.session sid) := rfl

/-- What holds of every session of a device with handle `dh` under the key `sid`. -/
structure SessInv (dh : Nat) (sid : UInt32) (s : Session) : Prop where
  id : s.id = sid
  owner : s.deviceHandle = dh
  configured : s.state = sessionStateIdle ∨ s.state = sessionStateActive →
    FiraType s.sessionType ∧ Device.hasMandatory s.appConfig = true
  task : s.state = sessionStateActive → s.rangingTask ≠ none
  noTask : s.state = sessionStateInit ∨ s.state = sessionStateDeinit → s.rangingTask = none

theorem sessMove_inv {tid dh : Nat} {sid : UInt32} {k : Kind} {o o' : Option Session} {es : List Effect}
    (h : SessMove tid sid dh k o es o') (hi : ∀ s, o = some s → SessInv dh sid s) :
    ∀ s, o' = some s → SessInv dh sid s := by
  intro s' hs'
  cases h with
  | keep => exact hi s' hs'
  | create ty =>
    cases hs'
    exact ⟨rfl, rfl, by simp, by simp, fun _ => rfl⟩
  | replace s ty hst =>
    cases hs'
    exact ⟨rfl, rfl, by simp [Session.new], by simp [Session.new], fun _ => rfl⟩
  | replaceActive s ty hst =>
    cases hs'
    exact ⟨rfl, rfl, by simp [Session.new], by simp [Session.new], fun _ => rfl⟩
  | remove => cases hs'
  | removeActive => cases hs'
  | configure s c hty hst hm =>
    cases hs'
    have i := hi s rfl
    exact ⟨i.id, i.owner, fun _ => ⟨hty, hm⟩, by simp, by simp⟩
  | reconfigure s c hty hst hm =>
    cases hs'
    have i := hi s rfl
    exact ⟨i.id, i.owner, fun _ => ⟨hty, hm⟩, i.task, i.noTask⟩
  | multicast s es dst hst hb hd =>
    cases hs'
    have i := hi s rfl
    exact ⟨i.id, i.owner, i.configured, i.task, i.noTask⟩
  | emptiedIdle s es hst hb =>
    cases hs'
    have i := hi s rfl
    exact ⟨i.id, i.owner, i.configured, i.task, i.noTask⟩
  | emptiedActive s es hst hb =>
    cases hs'
    have i := hi s rfl
    exact ⟨i.id, i.owner, fun _ => i.configured (.inr hst), by simp, by simp⟩
  | start s hst ht =>
    cases hs'
    have i := hi s rfl
    exact ⟨i.id, i.owner, fun _ => i.configured (.inl hst), by simp, by simp⟩
  | stop s r hst hr =>
    cases hs'
    have i := hi s rfl
    exact ⟨i.id, i.owner, fun _ => i.configured (.inr hst), by simp, fun _ => rfl⟩
  | data s b =>
    cases hs'
    have i := hi s rfl
    exact ⟨i.id, i.owner, i.configured, i.task, i.noTask⟩
  | round s n =>
    cases hs'
    have i := hi s rfl
    exact ⟨i.id, i.owner, i.configured, i.task, i.noTask⟩

theorem sessMove_status {tid dh : Nat} {sid : UInt32} {k : Kind} {o o' : Option Session} {es : List Effect}
    (h : SessMove tid sid dh k o es o') (hi : ∀ s, o = some s → s.id = sid) :
    (stOf o = stOf o' ∨ Allowed (stOf o) (stOf o')) ∧
    (∀ x, statusNtfs x es = if x = sid ∧ stOf o' ≠ stOf o then [stOf o'] else []) ∧ deviceNtfs es = [] := by
  unfold Allowed
  cases h with
  | keep => simp
  | create ty => simp [stOf, statusNtfs_status, eq_comm (a := sid)]
  | replace s ty hst =>
    have hid := hi s rfl
    obtain ⟨h1, h2, -⟩ := drop_obs s
    refine ⟨?_, fun x => ?_, h2⟩
    · by_cases hd : s.state = sessionStateDeinit <;> simp [stOf, Session.new, hd]
    · rw [h1 x, hid]
      by_cases hd : s.state = sessionStateDeinit <;> by_cases hx : x = sid <;>
        simp [stOf, Session.new, hd, hx, eq_comm (a := sid), eq_comm (a := sessionStateDeinit)]
  | replaceActive s ty hst =>
    have hid := hi s rfl
    obtain ⟨h1, h2, -⟩ := drop_obs s
    refine ⟨?_, fun x => ?_, h2⟩
    · by_cases hd : s.state = sessionStateDeinit <;> simp [stOf, Session.new, hd]
    · rw [h1 x, hid]
      by_cases hd : s.state = sessionStateDeinit <;> by_cases hx : x = sid <;>
        simp [stOf, Session.new, hd, hx, eq_comm (a := sid), eq_comm (a := sessionStateDeinit)]
  | remove s hst =>
    have hid := hi s rfl
    obtain ⟨h1, h2, -⟩ := drop_obs s
    refine ⟨?_, fun x => ?_, h2⟩
    · by_cases hd : s.state = sessionStateDeinit <;> simp [stOf, hd]
    · rw [h1 x, hid]
      by_cases hd : s.state = sessionStateDeinit <;> by_cases hx : x = sid <;>
        simp [stOf, hd, hx, eq_comm (a := sid), eq_comm (a := sessionStateDeinit)]
  | removeActive s hst =>
    have hid := hi s rfl
    obtain ⟨h1, h2, -⟩ := drop_obs s
    refine ⟨by simp [stOf, hst], fun x => ?_, h2⟩
    rw [h1 x, hid]
    by_cases hx : x = sid <;> simp [stOf, hst, hx, eq_comm (a := sid)]
  | configure s c hty hst hm =>
    have hid := hi s rfl
    simp [stOf, hst, hid, eq_comm (a := sid)]
  | reconfigure s c hty hst hm => simp [stOf]
  | multicast s es dst hst hb hd =>
    obtain ⟨h1, h2, -⟩ := benign_obs hb
    simp [stOf, h1, h2]
  | emptiedIdle s es hst hb =>
    obtain ⟨h1, h2, -⟩ := benign_obs hb
    simp [stOf, h1, h2]
  | emptiedActive s es hst hb =>
    have hid := hi s rfl
    obtain ⟨h1, h2, -⟩ := benign_obs hb
    simp [stOf, h1, h2, hst, hid, eq_comm (a := sid)]
  | start s hst ht =>
    have hid := hi s rfl
    refine ⟨by simp [stOf, hst], fun x => ?_, rfl⟩
    rw [show ∀ (a b : Effect), [a, b] = [a] ++ [b] from fun _ _ => rfl, statusNtfs_append]
    rw [show statusNtfs x [Effect.startTimer tid sid s.appConfig.rangingDuration] = [] from rfl]
    simp [stOf, hst, hid, eq_comm (a := sid)]
  | stop s r hst hr =>
    have hid := hi s rfl
    simp [stOf, hst, hid, eq_comm (a := sid)]
  | data s b => simp [stOf]
  | round s n => simp [stOf]

/-- The timers a session move starts and aborts: only the new one and only the session's own. -/
theorem sessMove_timers {tid dh : Nat} {sid : UInt32} {k : Kind} {o o' : Option Session} {es : List Effect}
    (h : SessMove tid sid dh k o es o') :
    (started es = [] ∧ aborted es = [] ∧ o'.bind (·.rangingTask) = o.bind (·.rangingTask)) ∨
    (started es = [tid] ∧ aborted es = [] ∧ o.bind (·.rangingTask) = none ∧ o'.bind (·.rangingTask) = some tid) ∨
    (started es = [] ∧ aborted es = (o.bind (·.rangingTask)).toList ∧ o'.bind (·.rangingTask) = none) := by
  cases h with
  | keep => exact .inl ⟨rfl, rfl, rfl⟩
  | create ty => exact .inl ⟨rfl, rfl, rfl⟩
  | replace s ty hst =>
    obtain ⟨-, -, h3, h4⟩ := drop_obs s
    exact .inr (.inr ⟨h3, h4, rfl⟩)
  | replaceActive s ty hst =>
    obtain ⟨-, -, h3, h4⟩ := drop_obs s
    exact .inr (.inr ⟨h3, h4, rfl⟩)
  | remove s hst =>
    obtain ⟨-, -, h3, h4⟩ := drop_obs s
    exact .inr (.inr ⟨h3, h4, rfl⟩)
  | removeActive s hst =>
    obtain ⟨-, -, h3, h4⟩ := drop_obs s
    exact .inr (.inr ⟨h3, h4, rfl⟩)
  | configure s c hty hst hm => exact .inl ⟨rfl, rfl, rfl⟩
  | reconfigure s c hty hst hm => exact .inl ⟨rfl, rfl, rfl⟩
  | multicast s es dst hst hb hd =>
    obtain ⟨-, -, h3, h4⟩ := benign_obs hb
    exact .inl ⟨h3, h4, rfl⟩
  | emptiedIdle s es hst hb =>
    obtain ⟨-, -, h3, h4⟩ := benign_obs hb
    exact .inl ⟨h3, h4, rfl⟩
  | emptiedActive s es hst hb =>
    obtain ⟨-, -, h3, h4⟩ := benign_obs hb
    refine .inl ⟨by simp [h3], by simp [h4], rfl⟩
  | start s hst ht => exact .inr (.inl ⟨rfl, rfl, ht, rfl⟩)
  | stop s r hst hr => refine .inr (.inr ⟨by simp, by simp, rfl⟩)
  | data s b => exact .inl ⟨rfl, rfl, rfl⟩
  | round s n => exact .inl ⟨rfl, rfl, rfl⟩

/-! ### Devices -/

/-- The session is ACTIVE. -/
def isActive (s : Session) : Bool := decide (s.state = sessionStateActive)

theorem activeCount_eq (d : Device) : activeCount d = AMap.count isActive d.sessions := rfl

/-- What holds of every device. -/
structure DevInv (d : Device) : Prop where
  nodup : (AMap.keys d.sessions).Nodup
  bound : d.sessions.length ≤ maxSession
  sess : ∀ sid s, d.session sid = some s → SessInv d.handle sid s
  count : activeCount d ≤ d.nActive
  state : d.state = if d.nActive = 0 then .deviceStateReady else .deviceStateActive
  fresh : d.isReset = false → d.sessions = [] ∧ d.config = .default ∧ d.countryCode = Arr.zero 2 ∧ d.nActive = 0

theorem devInv_init (h : Nat) (mac : MacAddress) : DevInv (Device.new h mac).init.1 := by
  rw [Device.init, Device.setState_eq]
  exact ⟨List.nodup_nil, Nat.zero_le _, (by intro sid s hs; cases hs), Nat.le_refl _, rfl, fun _ => ⟨rfl, rfl, rfl, rfl⟩⟩

theorem reset_eq (d : Device) : d.coreDeviceReset.1 =
    { (Device.new d.handle d.macAddress).init.1 with isReset := true } := by
  unfold Device.coreDeviceReset Device.init
  simp only [Device.setState_eq]

theorem reset_effects (d : Device) : d.coreDeviceReset.2.2 =
    d.dropSessions ++ [.notify 5 (.coreDeviceStatus .deviceStateReady)] := rfl

theorem stOf_weight (o : Option Session) : AMap.weight isActive o = if stOf o = sessionStateActive then 1 else 0 := by
  cases o with
  | none => rfl
  | some s => simp only [AMap.weight, isActive, stOf, decide_eq_true_eq]; rfl

theorem sessMove_count {tid dh : Nat} {sid : UInt32} {k : Kind} {o o' : Option Session} {es : List Effect}
    (h : SessMove tid sid dh k o es o') :
    match k with
    | .quiet => stOf o' = sessionStateActive ↔ stOf o = sessionStateActive
    | .leak => stOf o = sessionStateActive ∧ stOf o' ≠ sessionStateActive
    | .start => stOf o = sessionStateIdle ∧ stOf o' = sessionStateActive
    | .release => stOf o = sessionStateActive ∧ stOf o' ≠ sessionStateActive := by
  cases h <;> simp_all [stOf, Session.new]

theorem devMove_handle {tid : Nat} {sc : Scope} {d d' : Device} {e : List Effect} (h : DevMove tid sc d e d') :
    d'.handle = d.handle ∧ d'.macAddress = d.macAddress := by
  cases h with
  | reset => rw [reset_eq]; exact ⟨rfl, rfl⟩
  | session => exact ⟨rfl, rfl⟩
  | config => exact ⟨rfl, rfl⟩
  | reorder => exact ⟨rfl, rfl⟩

theorem devMove_inv {tid : Nat} {sc : Scope} {d d' : Device} {e : List Effect} (h : DevMove tid sc d e d') (hi : DevInv d) :
    DevInv d' := by
  cases h with
  | reset =>
    rw [reset_eq]
    have i := devInv_init d.handle d.macAddress
    exact ⟨i.nodup, i.bound, i.sess, i.count, i.state, by intro h; cases h⟩
  | session sid k es ed _ o n st hs hc he hl hsc hlk =>
    have hfree : d.isReset = false → o = none ∧ k = .quiet := by
      intro hr
      have hn : d.session sid = none := by
        show AMap.get? d.sessions sid = none
        rw [(hi.fresh hr).1]; rfl
      have ho : o = none := by
        by_contra ho
        rw [(hl hn ho).2] at hr; cases hr
      subst ho
      rw [hn] at hs
      cases hs
      exact ⟨rfl, rfl⟩
    have hcnt := sessMove_count hs
    have hcc := hi.count
    have hw := AMap.count_put (p := isActive) hi.nodup sid o
    rw [activeCount_eq] at hcc
    rw [stOf_weight, stOf_weight] at hw
    change _ + (if stOf (d.session sid) = _ then 1 else 0) = _ at hw
    refine ⟨AMap.nodup_put hi.nodup _ _, ?_, ?_, ?_, ?_, ?_⟩
    · show (AMap.put d.sessions sid o).length ≤ maxSession
      have hb := hi.bound
      cases o with
      | none => exact Nat.le_trans (AMap.length_erase_le _ _) hb
      | some s =>
        show (AMap.insert d.sessions sid s).length ≤ maxSession
        rw [AMap.length_insert]
        split
        · exact hb
        · rename_i hn
          have hn : AMap.get? d.sessions sid = none := by simpa using hn
          exact (hl hn (by simp)).1
    · intro x s hx
      have hg : (d.sessions.put sid o).get? x = some s := hx
      rw [AMap.get?_put] at hg
      split at hg
      · rename_i hxs; subst hxs
        exact sessMove_inv hs (fun s hs => hi.sess _ s hs) s hg
      · exact hi.sess x s hg
    · rw [activeCount_eq]
      show AMap.count isActive (d.sessions.put sid o) ≤ n
      cases k <;> simp only [CountMove] at hc hcnt
      · obtain ⟨rfl, -⟩ := hc
        split at hw <;> split at hw <;> first | omega | (exfalso; simp_all)
      · obtain ⟨rfl, -⟩ := hc
        rw [hcnt.1, hcnt.2] at hw
        simp at hw
        omega
      · obtain ⟨rfl, -⟩ := hc
        rw [hcnt.1] at hw
        simp [hcnt.2] at hw
        omega
      · obtain ⟨rfl, -⟩ := hc
        rw [hcnt.1] at hw
        simp [hcnt.2] at hw
        omega
    · show st = if n = 0 then _ else _
      have hst := hi.state
      cases k <;> simp only [CountMove] at hc hcnt
      · obtain ⟨rfl, rfl, -⟩ := hc; exact hst
      · obtain ⟨rfl, rfl, -⟩ := hc; simp
      · obtain ⟨rfl, hc⟩ := hc
        split at hc
        · rename_i h0; simp [hc.1, h0]
        · rename_i h0
          rw [hc.1, hst, if_neg (by omega), if_neg h0]
      · obtain ⟨rfl, rfl, -⟩ := hc; exact hst
    · intro hr
      obtain ⟨rfl, rfl⟩ := hfree hr
      obtain ⟨h1, h2, h3, h4⟩ := hi.fresh hr
      refine ⟨?_, h2, h3, hc.1.trans h4⟩
      show AMap.erase d.sessions sid = []
      rw [h1]; rfl
  | config c cc hc => exact ⟨hi.nodup, hi.bound, hi.sess, hi.count, hi.state, fun hr => by
      obtain ⟨h1, h2, h3, h4⟩ := hi.fresh hr
      obtain ⟨rfl, rfl⟩ := hc hr
      exact ⟨h1, h2, h3, h4⟩⟩
  | reorder l hp =>
    refine ⟨?_, ?_, ?_, ?_, hi.state, ?_⟩
    · exact (hp.map Prod.fst).nodup_iff.mpr hi.nodup
    · exact Nat.le_trans (Nat.le_of_eq hp.length_eq) hi.bound
    · intro sid s hs
      exact hi.sess sid s ((AMap.get?_perm hi.nodup hp sid).symm.trans hs)
    · exact Nat.le_trans (Nat.le_of_eq (AMap.count_perm (p := isActive) hp)) hi.count
    · intro hr
      obtain ⟨h1, h2⟩ := hi.fresh hr
      refine ⟨?_, h2⟩
      rw [h1] at hp
      exact hp.eq_nil

/-! ### What a device move does to states and notifications -/

theorem statusNtfs_flatMap (x : UInt32) (l : List Session) :
    statusNtfs x (l.flatMap Session.drop) = l.flatMap (fun s => statusNtfs x s.drop) := by
  induction l with
  | nil => rfl
  | cons s l ih => simp [List.flatMap_cons, ih]

theorem statusNtfs_dropSessions {d : Device} (hi : DevInv d) (x : UInt32) :
    statusNtfs x d.dropSessions = if stateOf d x = sessionStateDeinit then [] else [sessionStateDeinit] := by
  have key : ∀ m : AMap UInt32 Session, (AMap.keys m).Nodup → (∀ e ∈ m, e.2.id = e.1) →
      statusNtfs x (m.values.flatMap Session.drop) =
        if stOf (m.get? x) = sessionStateDeinit then [] else [sessionStateDeinit] := by
    intro m
    induction m with
    | nil => intros; rfl
    | cons e m ih =>
      intro hn hid
      have hn' : e.1 ∉ AMap.keys m ∧ (AMap.keys m).Nodup := by
        simpa [AMap.keys] using hn
      have hm := ih hn'.2 (fun e he => hid e (List.mem_cons_of_mem _ he))
      have he := hid e List.mem_cons_self
      show statusNtfs x ((e.2 :: AMap.values m).flatMap Session.drop) = _
      rw [List.flatMap_cons, statusNtfs_append, hm, (drop_obs e.2).1, he, AMap.get?_cons]
      by_cases hx : e.1 = x
      · subst hx
        rw [AMap.get?_eq_none.mpr hn'.1]
        by_cases hd : e.2.state = sessionStateDeinit <;> simp [stOf, hd]
      · simp [hx]
  refine key d.sessions hi.nodup ?_
  rintro ⟨sid, s⟩ he
  exact (hi.sess sid s (AMap.get?_of_mem hi.nodup he)).id

theorem deviceNtfs_dropSessions (d : Device) : deviceNtfs d.dropSessions = [] := by
  unfold Device.dropSessions
  generalize AMap.values d.sessions = l
  induction l with
  | nil => rfl
  | cons s l ih => rw [List.flatMap_cons, deviceNtfs_append, ih, (drop_obs s).2.1]; rfl

theorem started_dropSessions (d : Device) : started d.dropSessions = [] := by
  unfold Device.dropSessions
  generalize AMap.values d.sessions = l
  induction l with
  | nil => rfl
  | cons s l ih => rw [List.flatMap_cons, started_append, ih, (drop_obs s).2.2.1]; rfl

theorem aborted_dropSessions (d : Device) :
    aborted d.dropSessions = d.sessions.values.flatMap (fun s => s.rangingTask.toList) := by
  unfold Device.dropSessions
  generalize AMap.values d.sessions = l
  induction l with
  | nil => rfl
  | cons s l ih => rw [List.flatMap_cons, aborted_append, ih, (drop_obs s).2.2.2]; rfl

theorem countMove_obs {d : Device} {ed : List Effect} {n : Nat} {st : DeviceState} {k : Kind}
    (h : CountMove d ed n st k) : (∀ x, statusNtfs x ed = []) ∧
      deviceNtfs ed = (if st = d.state then [] else [st]) ∧ started ed = [] ∧ aborted ed = [] := by
  cases k <;> simp only [CountMove] at h
  · obtain ⟨-, rfl, rfl⟩ := h; simp
  · obtain ⟨-, rfl, rfl⟩ := h; exact stateNtf_obs _ _
  · obtain ⟨-, h⟩ := h
    split at h
    · obtain ⟨rfl, rfl⟩ := h; exact stateNtf_obs _ _
    · obtain ⟨rfl, rfl⟩ := h; simp
  · obtain ⟨-, rfl, rfl⟩ := h; simp

theorem stateOf_put (d : Device) (sid x : UInt32) (o : Option Session) (n : Nat) (st : DeviceState) :
    stateOf { d with sessions := d.sessions.put sid o, nActive := n, state := st } x =
      if sid = x then stOf o else stateOf d x := by
  rw [stateOf_eq, stateOf_eq]
  show stOf ((d.sessions.put sid o).get? x) = _
  rw [AMap.get?_put]
  split <;> rfl

/-- Every move of a device changes each session along the life cycle, scheduling one notification per change. -/
theorem devMove_status {tid : Nat} {sc : Scope} {d d' : Device} {e : List Effect} (h : DevMove tid sc d e d') (hi : DevInv d) (x : UInt32) :
    (stateOf d x = stateOf d' x ∨ Allowed (stateOf d x) (stateOf d' x)) ∧
    statusNtfs x e = if stateOf d' x ≠ stateOf d x then [stateOf d' x] else [] := by
  cases h with
  | reset =>
    rw [reset_effects, statusNtfs_append, statusNtfs_dropSessions hi]
    have h0 : stateOf d.coreDeviceReset.1 x = sessionStateDeinit := by rw [reset_eq]; rfl
    rw [h0]
    show _ ∧ _ ++ [] = _
    unfold Allowed
    by_cases hd : stateOf d x = sessionStateDeinit <;> simp [hd, eq_comm (a := sessionStateDeinit)]
  | session sid k es ed _ o n st hs hc he hl hsc hlk =>
    obtain ⟨h1, h2, -⟩ := sessMove_status hs (fun s hs => (hi.sess sid s hs).id)
    obtain ⟨g1, -⟩ := countMove_obs hc
    have hE : statusNtfs x e = statusNtfs x es := by
      rcases he with rfl | rfl <;> simp [g1]
    rw [hE, h2, stateOf_put]
    by_cases hx : sid = x
    · subst hx
      simp only [if_true, true_and]
      exact ⟨h1, rfl⟩
    · simp [hx, Ne.symm hx]
  | config c cc hc => simp [stateOf]
  | reorder l hp =>
    have : stateOf { d with sessions := l } x = stateOf d x := by
      rw [stateOf_eq, stateOf_eq]
      exact congrArg stOf (AMap.get?_perm hi.nodup hp x)
    rw [this]; simp

theorem sessMove_device {tid dh : Nat} {sid : UInt32} {k : Kind} {o o' : Option Session} {es : List Effect}
    (h : SessMove tid sid dh k o es o') : deviceNtfs es = [] := by
  cases h
  all_goals first | rfl | exact (drop_obs _).2.1 | skip
  · exact (benign_obs (by assumption)).2.1
  · rename_i hb; exact (benign_obs hb).2.1
  · rename_i hb; rw [deviceNtfs_append, (benign_obs hb).2.1]; rfl
  · rw [deviceNtfs_append, deviceNtfs_abort]; rfl

/-- Changes of the device state are notified; CORE_DEVICE_RESET notifies READY always. -/
theorem devMove_device {tid : Nat} {sc : Scope} {d d' : Device} {e : List Effect} (h : DevMove tid sc d e d') :
    deviceNtfs e = [] ∧ d'.state = d.state ∨ deviceNtfs e = [d'.state] := by
  cases h with
  | reset =>
    rw [reset_effects, deviceNtfs_append, deviceNtfs_dropSessions]
    exact .inr (by rw [reset_eq]; rfl)
  | session sid k es ed _ o n st hs hc he hl hsc hlk =>
    have h2 := sessMove_device hs
    obtain ⟨-, g, -⟩ := countMove_obs hc
    have hE : deviceNtfs e = deviceNtfs ed := by rcases he with rfl | rfl <;> simp [h2]
    rw [hE, g]
    show _ ∧ st = _ ∨ _ = [st]
    by_cases hst : st = d.state <;> simp [hst]
  | config c cc hc => exact .inl ⟨rfl, rfl⟩
  | reorder l hp => exact .inl ⟨rfl, rfl⟩

/-- The move starts a device's timer only in a session without one and aborts only timers of the
session it concerns. -/
theorem devMove_other {tid : Nat} {sc : Scope} {d d' : Device} {e : List Effect} (h : DevMove tid sc d e d') (hn : (AMap.keys d.sessions).Nodup) :
    (e = d.coreDeviceReset.2.2 ∧ d' = d.coreDeviceReset.1) ∨
    ∃ sid, (∀ x, x ≠ sid → d'.session x = d.session x) ∧
      ((started e = [] ∧ aborted e = [] ∧ (d'.session sid).bind (·.rangingTask) = (d.session sid).bind (·.rangingTask)) ∨
       (started e = [tid] ∧ aborted e = [] ∧ (d.session sid).bind (·.rangingTask) = none ∧
          (d'.session sid).bind (·.rangingTask) = some tid) ∨
       (started e = [] ∧ aborted e = ((d.session sid).bind (·.rangingTask)).toList ∧
          (d'.session sid).bind (·.rangingTask) = none)) := by
  cases h with
  | reset => exact .inl ⟨rfl, rfl⟩
  | session sid k es ed _ o n st hs hc he hl hsc hlk =>
    refine .inr ⟨sid, fun x hx => ?_, ?_⟩
    · show AMap.get? (d.sessions.put sid o) x = _
      rw [AMap.get?_put, if_neg (Ne.symm hx)]; rfl
    · obtain ⟨-, -, g1, g2⟩ := countMove_obs hc
      have hE : started e = started es ∧ aborted e = aborted es := by rcases he with rfl | rfl <;> simp [g1, g2]
      have ho : Device.session { d with sessions := d.sessions.put sid o, nActive := n, state := st } sid = o := by
        show AMap.get? (d.sessions.put sid o) sid = _
        rw [AMap.get?_put, if_pos rfl]
      rw [hE.1, hE.2, ho]
      exact sessMove_timers hs
  | config c cc hc => exact .inr ⟨0, fun x hx => rfl, .inl ⟨rfl, rfl, rfl⟩⟩
  | reorder l hp => exact .inr ⟨0, fun x hx => AMap.get?_perm hn hp x, .inl ⟨rfl, rfl, by
      rw [show Device.session { d with sessions := l } 0 = d.session 0 from AMap.get?_perm hn hp 0]⟩⟩

end Pica

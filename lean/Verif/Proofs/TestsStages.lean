import Verif.Proofs.TestsHost
import Verif.Props.Clock
/-! The stages of a host of the tests. -/

set_option linter.dupNamespace false

namespace Pica.Tests
open Spec SessionState

/-! ### The emulator, as far as a host is concerned -/

/-- The host a command is about. -/
def about : Command → Option Nat
  | .uciPacket h _ | .ranging h _ | .disconnect h => some h
  | _ => none

/-- The commands in the queue that are about a host, and when they were put there. -/
def pending (h : Nat) (stamps : List Nat) (queue : List Command) : List (Nat × Command) :=
  (stamps.zip queue).filter fun x => decide (about x.2 = some h)

theorem pending_push {h t : Nat} {stamps : List Nat} {queue : List Command} (hl : stamps.length = queue.length) (c : Command) :
    pending h (stamps ++ [t]) (queue ++ [c]) = pending h stamps queue ++ if about c = some h then [(t, c)] else [] := by
  unfold pending
  rw [List.zip_append hl, List.filter_append]
  congr 1
  rw [List.zip_cons_cons, List.zip_nil_left, List.filter_cons, List.filter_nil]
  by_cases h1 : about c = some h <;> simp [h1]

theorem pending_pop {h a : Nat} {stamps : List Nat} {queue : List Command} (c : Command) :
    pending h (a :: stamps) (c :: queue) = (if about c = some h then [(a, c)] else []) ++ pending h stamps queue := by
  unfold pending
  rw [List.zip_cons_cons, List.filter_cons]
  by_cases h1 : about c = some h <;> simp [h1]

theorem mem_pending {h a : Nat} {c : Command} {stamps : List Nat} {queue : List Command} (hm : (a, c) ∈ pending h stamps queue) :
    a ∈ stamps ∧ c ∈ queue ∧ about c = some h := by
  obtain ⟨h1, h2⟩ := List.mem_filter.mp hm
  exact ⟨(List.of_mem_zip h1).1, (List.of_mem_zip h1).2, of_decide_eq_true h2⟩

/-- The ranging task of a host that is not cancelled. -/
def Alarm (c : Clock) (h : Nat) (timer : Option (Nat × Nat)) : Prop :=
  (∀ k ∈ c.sys.timers, k.device = h → ∀ i due, c.wakes.get? k.id = some (i, due) →
    timer = some (k.id, due) ∧ i = 1000000 ∧ k.session = 0 ∧ k.aborted = false) ∧
  ∀ id due, timer = some (id, due) → (⟨id, h, 0, false⟩ : Timer) ∈ c.sys.timers ∧ c.wakes.get? id = some (1000000, due)

/-- How far a host has got. -/
structure Stage where
  dev : Device
  queue : List (Nat × Command)
  naps : List (Nat × Ntf)
  timer : Option (Nat × Nat)
  /-- when it was last sent something or sent something itself -/
  lo : Nat
  /-- the statements to be executed once it has read its queues -/
  rest : List Statement

/-- When something must have happened. -/
def Stage.deadline (late lag : Nat) (g : Stage) : Nat :=
  match g.queue with
  | (a, _) :: _ => a + lag
  | [] =>
    match g.naps with
    | (d, _) :: _ => d + late
    | [] =>
      match g.rest with
      | .send _ :: _ => g.lo + 2 * lag
      | _ =>
        match g.timer with
        | some (_, d) => d + lag
        | none => 0

/-- The host is at this stage. -/
structure At (late lag : Nat) (s : Test) (h : Nat) (H : Host) (g : Stage) : Prop where
  dev : s.clock.sys.pica.devices.get? h = some g.dev
  queue : pending h s.stamps s.clock.sys.queue = g.queue
  naps : (Props.napsOf h s.clock.naps).Perm g.naps
  timer : Alarm s.clock h g.timer
  conn : s.clock.sys.conns.get? h = some .running
  host : s.hosts.get? h = some H
  waits : Waits lag s.clock.now H g.lo g.rest
  lo : g.lo ≤ s.clock.now
  hi : s.clock.now ≤ g.deadline late lag

/-- The host is done, or will be when it has read its queue. -/
structure Finished (lag : Nat) (s : Test) (h : Nat) (H : Host) (low : Nat) : Prop where
  dev : ∀ d, s.clock.sys.pica.devices.get? h = some d → d.sessions = []
  queue : ∀ x ∈ pending h s.stamps s.clock.sys.queue, x.2 = .disconnect h
  timer : Alarm s.clock h none
  host : s.hosts.get? h = some H
  waits : Waits lag s.clock.now H low []
  lo : low ≤ s.clock.now
  hi : H.todo ≠ [] → s.clock.now ≤ low + lag

/-- The host does not exist yet. -/
structure Blank (s : Test) (h : Nat) : Prop where
  dev : s.clock.sys.pica.devices.get? h = none
  queue : pending h s.stamps s.clock.sys.queue = []
  naps : Props.napsOf h s.clock.naps = []
  timer : ∀ k ∈ s.clock.sys.timers, k.device ≠ h
  conn : s.clock.sys.conns.get? h = none
  host : s.hosts.get? h = none

/-- How far a host has got, and when its connection was accepted. -/
inductive Status where
  | blank
  | at (born : Nat) (g : Stage)
  | done (born lo : Nat)

/-- The host has got so far. -/
def Is (late lag : Nat) (s : Test) (h : Nat) : Status → Prop
  | .blank => Blank s h
  | .at b g => ∃ H, H.born = b ∧ At late lag s h H g
  | .done b lo => ∃ H, H.born = b ∧ Finished lag s h H lo

/-- Something is due. -/
def Stage.Due (g : Stage) : Prop := g.queue ≠ [] ∨ g.naps ≠ [] ∨ (∃ c r, g.rest = .send c :: r) ∨ g.timer ≠ none

/-! ### Steps that do not concern a host -/

/-- Nothing has happened to the host `h`, except that it may have got something. -/
structure Near (h : Nat) (s u : Test) : Prop where
  dev : u.clock.sys.pica.devices.get? h = s.clock.sys.pica.devices.get? h
  queue : pending h u.stamps u.clock.sys.queue = pending h s.stamps s.clock.sys.queue
  naps : (Props.napsOf h u.clock.naps).Perm (Props.napsOf h s.clock.naps)
  timers : ∀ k ∈ u.clock.sys.timers, k.device = h → k ∈ s.clock.sys.timers
  live : ∀ id, (⟨id, h, 0, false⟩ : Timer) ∈ s.clock.sys.timers → (⟨id, h, 0, false⟩ : Timer) ∈ u.clock.sys.timers
  wakes : ∀ k ∈ s.clock.sys.timers, k.device = h → u.clock.wakes.get? k.id = s.clock.wakes.get? k.id
  conn : u.clock.sys.conns.get? h = s.clock.sys.conns.get? h

/-- Nothing has happened to the host `h`. -/
structure Same (h : Nat) (s u : Test) : Prop extends Near h s u where
  host : u.hosts.get? h = s.hosts.get? h

theorem Near.alarm {h : Nat} {s u : Test} (hs : Near h s u) {timer : Option (Nat × Nat)} (ha : Alarm s.clock h timer) :
    Alarm u.clock h timer := by
  refine ⟨fun k hk hd i due hw => ?_, fun id due e => ?_⟩
  · have hk' := hs.timers k hk hd
    rw [hs.wakes k hk' hd] at hw
    exact ha.1 k hk' hd i due hw
  · obtain ⟨h1, h2⟩ := ha.2 id due e
    exact ⟨hs.live id h1, by rw [← h2]; exact hs.wakes _ h1 rfl⟩

/-- Nothing is overdue at a time before the deadline. -/
theorem At.deadline {late lag t : Nat} {s : Test} {h : Nat} {H : Host} {g : Stage}
    (ha : At late lag s h H g) (hi : InTime late lag t s) (hg : g.Due) : t ≤ g.deadline late lag := by
  unfold Stage.deadline
  split
  · rename_i a c q hq
    have hm : (a, c) ∈ pending h s.stamps s.clock.sys.queue := by rw [ha.queue, hq]; exact List.mem_cons_self
    exact hi.queue a (mem_pending hm).1
  · rename_i hq
    split
    · rename_i d n ns hn
      have hm : (d, n) ∈ Props.napsOf h s.clock.naps := ha.naps.mem_iff.mpr (by rw [hn]; exact List.mem_cons_self)
      exact hi.naps _ (Props.mem_napsOf.mp hm)
    · rename_i hn
      split
      · rename_i c r hr
        have hw := ha.waits
        exact hw.sends (hi.hosts h H ha.host) hr
      · rename_i hr
        split
        · rename_i id d ht
          obtain ⟨h1, h2⟩ := ha.timer.2 id d ht
          exact hi.timers _ h1 _ _ h2
        · rename_i ht
          rcases hg with h1 | h1 | ⟨c, r, h1⟩ | h1
          · exact absurd hq h1
          · exact absurd hn h1
          · exact absurd h1 (hr c r)
          · exact absurd ht h1

theorem At.same {late lag : Nat} {s u : Test} {h : Nat} {H : Host} {g : Stage}
    (ha : At late lag s h H g) (hs : Same h s u) (hl : s.clock.now ≤ u.clock.now) (hd : u.clock.now ≤ g.deadline late lag) :
    At late lag u h H g where
  dev := hs.dev.trans ha.dev
  queue := hs.queue.trans ha.queue
  naps := hs.naps.trans ha.naps
  timer := hs.alarm ha.timer
  conn := hs.conn.trans ha.conn
  host := hs.host.trans ha.host
  waits := ha.waits.mono hl
  lo := Nat.le_trans ha.lo hl
  hi := hd

theorem Finished.later {lag lo late t : Nat} {s : Test} {h : Nat} {H : Host} (ha : Finished lag s h H lo) (hi : InTime late lag t s) :
    Waits lag t H lo [] ∧ lo ≤ t ∧ (H.todo ≠ [] → t ≤ lo + lag) :=
  ⟨ha.waits.mono hi.now, Nat.le_trans ha.lo hi.now, ha.waits.ends (hi.hosts h H ha.host)⟩

theorem Finished.same {lag lo : Nat} {s u : Test} {h : Nat} {H : Host} (ha : Finished lag s h H lo) (hs : Same h s u)
    {late : Nat} (hi : InTime late lag u.clock.now s) : Finished lag u h H lo where
  dev d hd := ha.dev d (by rw [← hs.dev]; exact hd)
  queue x hx := ha.queue x (by rw [← hs.queue]; exact hx)
  timer := hs.alarm ha.timer
  host := hs.host.trans ha.host
  waits := (ha.later hi).1
  lo := (ha.later hi).2.1
  hi := (ha.later hi).2.2

theorem Blank.same {s u : Test} {h : Nat} (ha : Blank s h) (hs : Same h s u) : Blank u h where
  dev := hs.dev.trans ha.dev
  queue := hs.queue.trans ha.queue
  naps := by have := hs.naps; rw [ha.naps] at this; exact this.eq_nil
  timer k hk hd := ha.timer k (hs.timers k hk hd) hd
  conn := hs.conn.trans ha.conn
  host := hs.host.trans ha.host

theorem Is.same {late lag : Nat} {s u : Test} {h : Nat} {st : Status} (ha : Is late lag s h st) (hs : Same h s u)
    (hd : ∀ b g, st = .at b g → g.Due) (hi : InTime late lag u.clock.now s) : Is late lag u h st := by
  cases st with
  | blank => exact Blank.same ha hs
  | «at» b g =>
    obtain ⟨H, e, ha⟩ := ha
    exact ⟨H, e, ha.same hs hi.now (ha.deadline hi (hd b g rfl))⟩
  | done b lo =>
    obtain ⟨H, e, ha⟩ := ha
    exact ⟨H, e, ha.same hs hi⟩

/-- The host gets data it does not wait for. -/
theorem Is.spare {late lag : Nat} {s u : Test} {h : Nat} {st : Status} {d : DataMessageRcv} (ha : Is late lag s h st) (hs : Near h s u)
    (hd : ∀ b g, st = .at b g → g.Due ∧ ∀ o n, .expect (.data o) n ∉ g.rest) (hi : InTime late lag u.clock.now s)
    (hf : d.applicationData.length ≤ 65535) (hb : ∀ H, s.hosts.get? h = some H → u.hosts.get? h = some (H.hear u.clock.now (.data d)))
    (hn : st ≠ .blank) : Is late lag u h st := by
  obtain ⟨b, h1, h2, -⟩ := arrives_data hf
  have hall : (arrives (.data d)).all forData = true := by rw [h1]; simp [h2]
  cases st with
  | blank => exact absurd rfl hn
  | «at» b g =>
    obtain ⟨H, e, ha⟩ := ha
    refine ⟨H.hear u.clock.now (.data d), e, hs.dev.trans ha.dev, hs.queue.trans ha.queue, hs.naps.trans ha.naps, hs.alarm ha.timer,
      hs.conn.trans ha.conn, hb H ha.host, ha.waits.spare (.inr ⟨hall, (hd b g rfl).2⟩) hi.now, Nat.le_trans ha.lo hi.now,
      ha.deadline hi (hd b g rfl).1⟩
  | done b lo =>
    obtain ⟨H, e, ha⟩ := ha
    obtain ⟨-, h4, h5⟩ := ha.later hi
    exact ⟨H.hear u.clock.now (.data d), e, (fun d hd => ha.dev d (by rw [← hs.dev]; exact hd)),
      (fun x hx => ha.queue x (by rw [← hs.queue]; exact hx)), hs.alarm ha.timer, hb H ha.host,
      ha.waits.spare (.inl rfl) hi.now, h4, h5⟩

/-- The host gets the data it waits for. -/
theorem At.data {late lag m : Nat} {s u : Test} {h : Nat} {H : Host} {g : Stage} {rest : List Statement} {o : Py.Obj} {d : DataMessageRcv}
    (ha : At late lag s h H g) (hs : Near h s u) (hx : g.rest = .expect (.data o) m :: rest) (hr : Reads (.data o) (.data d))
    (hi : InTime late lag u.clock.now s) (hb : ∀ H, s.hosts.get? h = some H → u.hosts.get? h = some (H.hear u.clock.now (.data d)))
    (hd : u.clock.now ≤ Stage.deadline late lag { g with lo := u.clock.now, rest := rest }) :
    At late lag u h (H.hear u.clock.now (.data d)) { g with lo := u.clock.now, rest := rest } := by
  have hw := ha.waits
  rw [hx] at hw
  exact ⟨hs.dev.trans ha.dev, hs.queue.trans ha.queue, hs.naps.trans ha.naps, hs.alarm ha.timer, hs.conn.trans ha.conn, hb H ha.host,
    hw.arrive hr hi.now, Nat.le_refl _, hd⟩

/-! ### Outputs that do not concern a host -/

/-- The output does not concern the host `h`, whose ranging tasks are among `P`. -/
def Off (h : Nat) (P : Nat → Prop) : Out → Prop
  | .send x _ => x ≠ h
  | .effect x (.notify _ _) => x ≠ h
  | .effect x (.startTimer k _ _) => x ≠ h ∧ ¬P k
  | .effect _ (.abortTimer k) => ¬P k
  | .effect _ (.stopRanging _ _ _) => True
  | .event (.connected x _) => x ≠ h
  | .event (.disconnected _ _) => True
  | .anchorReply _ => True

/-- The output does not concern the host `h`, except that it may send it something. -/
def Still (h : Nat) (P : Nat → Prop) : Out → Prop
  | .send _ _ => True
  | o => Off h P o

theorem Off.still {h : Nat} {P : Nat → Prop} {o : Out} (ho : Off h P o) : Still h P o := by
  cases o <;> first | exact ho | trivial

theorem off_timers {h : Nat} {P : Nat → Prop} {out : List Out} (ho : ∀ o ∈ out, Still h P o) {S : System}
    (hP : ∀ k ∈ S.timers, k.device = h → P k.id) (k : Timer) (hk : k.device = h) :
    k ∈ (out.foldl System.apply S).timers ↔ k ∈ S.timers := by
  induction out generalizing S with
  | nil => exact Iff.rfl
  | cons o out ih =>
    have h1 := ho o List.mem_cons_self
    have key : ∀ k : Timer, k.device = h → (k ∈ (S.apply o).timers ↔ k ∈ S.timers) := by
      intro k hk
      cases o with
      | effect x e =>
        cases e with
        | startTimer t sid i =>
          show k ∈ S.timers ++ [_] ↔ _
          rw [List.mem_append, List.mem_singleton, or_iff_left]
          rintro rfl
          exact h1.1 hk
        | abortTimer t =>
          show k ∈ S.timers.map (System.mark t) ↔ _
          rw [List.mem_map]
          constructor
          · rintro ⟨z, hz, rfl⟩
            have hzd : z.device = h := by
              unfold System.mark at hk
              split at hk <;> exact hk
            have : System.mark t z = z := by
              unfold System.mark
              rw [if_neg]
              rintro rfl
              exact h1 (hP z hz hzd)
            rw [this]; exact hz
          · intro hk'
            refine ⟨k, hk', ?_⟩
            unfold System.mark
            rw [if_neg]
            rintro rfl
            exact h1 (hP k hk' hk)
        | _ => exact Iff.rfl
      | event e => cases e <;> exact Iff.rfl
      | _ => exact Iff.rfl
    rw [List.foldl_cons, ih (fun o h => ho o (List.mem_cons_of_mem _ h)) (fun k hk hd => hP k ((key k hd).mp hk) hd)]
    exact key k hk

theorem off_wakes {h t : Nat} {P : Nat → Prop} {out : List Out} (ho : ∀ o ∈ out, Still h P o) {w : AMap Nat (Nat × Nat)} {id : Nat}
    (hP : P id) : (out.foldl (Clock.alarm t) w).get? id = w.get? id := by
  induction out generalizing w with
  | nil => rfl
  | cons o out ih =>
    have h1 := ho o List.mem_cons_self
    rw [List.foldl_cons, ih fun o h => ho o (List.mem_cons_of_mem _ h)]
    cases o with
    | effect x e =>
      cases e with
      | startTimer k sid i =>
        show (AMap.insert _ _ _).get? id = _
        rw [AMap.get?_insert_of_ne]
        rintro rfl
        exact h1.2 hP
      | abortTimer k =>
        have hne : id ≠ k := by rintro rfl; exact h1 hP
        unfold Clock.alarm
        dsimp only
        split
        · split
          · exact AMap.get?_erase_of_ne hne
          · rfl
        · rfl
      | _ => rfl
    | event e => cases e <;> rfl
    | _ => rfl

theorem off_naps {h t : Nat} {P : Nat → Prop} {out : List Out} (ho : ∀ o ∈ out, Still h P o) :
    Props.napsOf h (out.filterMap (Clock.nap t)) = [] := by
  unfold Props.napsOf
  rw [List.filterMap_filterMap, List.filterMap_eq_nil_iff]
  intro o hm
  have h1 := ho o hm
  cases o with
  | effect x e =>
    cases e with
    | notify d n => exact if_neg h1
    | _ => rfl
  | _ => rfl

theorem off_conns {h : Nat} {P : Nat → Prop} {out : List Out} (ho : ∀ o ∈ out, Still h P o) {S : System} :
    (out.foldl System.apply S).conns.get? h = S.conns.get? h := by
  induction out generalizing S with
  | nil => rfl
  | cons o out ih =>
    have h1 := ho o List.mem_cons_self
    rw [List.foldl_cons, ih fun o h => ho o (List.mem_cons_of_mem _ h)]
    cases o with
    | effect x e => cases e <;> rfl
    | event e =>
      cases e with
      | connected x m => exact AMap.get?_insert_of_ne (fun e => h1 e.symm)
      | disconnected => rfl
    | _ => rfl

theorem post_ne {t h y : Nat} {p : Packet} {hosts : AMap Nat Host} (hne : y ≠ h) : (post t y p hosts).get? h = hosts.get? h := by
  unfold post
  split
  · exact AMap.get?_insert_of_ne (fun e => hne e.symm)
  · rfl

theorem post_self {t h : Nat} {p : Packet} {hosts : AMap Nat Host} {H : Host} (hh : hosts.get? h = some H) :
    (post t h p hosts).get? h = some (H.hear t p) := by
  unfold post
  rw [hh]
  exact AMap.get?_insert_self _ _ _

theorem off_hosts {h t : Nat} {script : Nat → List Statement} {P : Nat → Prop} {out : List Out} (ho : ∀ o ∈ out, Off h P o)
    {hosts : AMap Nat Host} : (out.foldl (hears script t) hosts).get? h = hosts.get? h := by
  induction out generalizing hosts with
  | nil => rfl
  | cons o out ih =>
    have h1 := ho o List.mem_cons_self
    rw [List.foldl_cons, ih fun o h => ho o (List.mem_cons_of_mem _ h)]
    cases o with
    | send x p => exact post_ne h1
    | event e =>
      cases e with
      | connected x m => exact AMap.get?_insert_of_ne (fun e => h1 e.symm)
      | disconnected => rfl
    | _ => rfl

/-- The test after a command has been processed. -/
def processed (script : Nat → List Statement) (t : Nat) (s : Test) (p : Pica) (q : List Command) (out : List Out) : Test :=
  ⟨⟨out.foldl System.apply { s.clock.sys with pica := p, queue := q, spawned := s.clock.sys.spawned + 1 }, t,
    s.clock.naps ++ out.filterMap (Clock.nap t), out.foldl (Clock.alarm t) s.clock.wakes⟩, s.stamps.tail,
    out.foldl (hears script t) s.hosts⟩

theorem near_processed {script : Nat → List Statement} {t h : Nat} {s : Test} {p : Pica} {c : Command} {q : List Command}
    {out : List Out} (hl : s.stamps.length = s.clock.sys.queue.length) (hq : s.clock.sys.queue = c :: q)
    (hd : p.devices.get? h = s.clock.sys.pica.devices.get? h) (hc : about c ≠ some h)
    (ho : ∀ o ∈ out, Still h (fun id => ∃ k ∈ s.clock.sys.timers, k.device = h ∧ k.id = id) o) :
    Near h s (processed script t s p q out) := by
  have ht := off_timers ho (S := { s.clock.sys with pica := p, queue := q, spawned := s.clock.sys.spawned + 1 })
    (fun k hk hd => ⟨k, hk, hd, rfl⟩)
  obtain ⟨f1, f2, -, -⟩ := System.applyAll_frame out { s.clock.sys with pica := p, queue := q, spawned := s.clock.sys.spawned + 1 }
  constructor
  · show (out.foldl System.apply _).pica.devices.get? h = _
    rw [f1]; exact hd
  · show pending h s.stamps.tail (out.foldl System.apply _).queue = _
    rw [f2, hq]
    cases hst : s.stamps with
    | nil => rw [hst, hq] at hl; cases hl
    | cons a as => rw [pending_pop, if_neg hc]; rfl
  · show (Props.napsOf h (s.clock.naps ++ out.filterMap (Clock.nap t))).Perm _
    have := off_naps (t := t) ho
    unfold Props.napsOf at this ⊢
    rw [List.filterMap_append, this, List.append_nil]
  · exact fun k hk hd => (ht k hd).mp hk
  · exact fun id hk => (ht _ rfl).mpr hk
  · exact fun k hk hd => off_wakes ho ⟨k, hk, hd, rfl⟩
  · exact off_conns ho

theorem same_processed {script : Nat → List Statement} {t h : Nat} {s : Test} {p : Pica} {c : Command} {q : List Command}
    {out : List Out} (hl : s.stamps.length = s.clock.sys.queue.length) (hq : s.clock.sys.queue = c :: q)
    (hd : p.devices.get? h = s.clock.sys.pica.devices.get? h) (hc : about c ≠ some h)
    (ho : ∀ o ∈ out, Off h (fun id => ∃ k ∈ s.clock.sys.timers, k.device = h ∧ k.id = id) o) :
    Same h s (processed script t s p q out) :=
  ⟨near_processed hl hq hd hc fun o hm => (ho o hm).still, off_hosts ho⟩

/-- Outputs that only send: what the hosts hear. -/
theorem hears_sends {sc : Nat → List Statement} {t k : Nat} {out : List Out} (ho : ∀ o ∈ out, ∃ k pkt, o = .send k pkt) {hosts : AMap Nat Host} :
    (out.foldl (hears sc t) hosts).get? k = (hosts.get? k).map fun H => (Spec.sentTo k out).foldl (fun H p => H.hear t p) H := by
  induction out generalizing hosts with
  | nil => rw [List.foldl_nil]; cases hosts.get? k <;> rfl
  | cons o out ih =>
    obtain ⟨y, p, rfl⟩ := ho o List.mem_cons_self
    rw [List.foldl_cons, ih fun o h => ho o (List.mem_cons_of_mem _ h)]
    show ((post t y p hosts).get? k).map _ = _
    by_cases hy : y = k
    · subst hy
      have e : Spec.sentTo y (Out.send y p :: out) = p :: Spec.sentTo y out := List.filterMap_cons_some (if_pos rfl)
      rw [e]
      cases hH : hosts.get? y with
      | none =>
        have : (post t y p hosts).get? y = none := by unfold post; rw [hH]; exact hH
        rw [this]; rfl
      | some H => rw [post_self hH]; rfl
    · have e : Spec.sentTo k (Out.send y p :: out) = Spec.sentTo k out := List.filterMap_cons_none (if_neg hy)
      rw [e, post_ne hy]

theorem off_stops {out : List Out} (ho : ∀ o ∈ out, ∀ x m sid n, o ≠ .effect x (.stopRanging m sid n)) {S : System} :
    (out.foldl System.apply S).stops = S.stops := by
  induction out generalizing S with
  | nil => rfl
  | cons o out ih =>
    have h1 := ho o List.mem_cons_self
    rw [List.foldl_cons, ih fun o h => ho o (List.mem_cons_of_mem _ h)]
    cases o with
    | effect x e =>
      cases e with
      | stopRanging m sid n => exact absurd rfl (h1 x m sid n)
      | _ => rfl
    | event e => cases e <;> rfl
    | _ => rfl

end Pica.Tests

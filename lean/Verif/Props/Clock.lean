import Verif.Spec.Clock
import Verif.Props.Notices
import Verif.Proofs.ClockExamples
import Mathlib.Data.List.Forall2
/-! C83, C84: when notifications arrive, and how often a session ranges. -/

namespace Pica.Props
open Spec System SessionState

theorem clock_step {t : Nat} {s u : Clock} {l : Label} (h : Clock.Step t s l u) :
    System.Step s.sys l u.sys ∧ u.now = t := by
  cases h with
  | plain _ h => exact ⟨h, rfl⟩
  | notifies _ _ h => exact ⟨h, rfl⟩
  | tick _ _ h => exact ⟨h, rfl⟩
  | process h => exact ⟨h, rfl⟩

/-- A schedule with times is a schedule: whatever holds of all schedules holds of those with times. -/
theorem clock_run {late : Nat} {ls : List (Nat × Label)} {s : Clock} (hr : Clock.Run late .new ls s) :
    System.Run .new (ls.map Prod.snd) s.sys := by
  induction hr with
  | nil => exact .nil
  | step _ hs _ _ hst ih =>
    rw [List.map_append]
    exact .step ih hs (clock_step hst).1

/-! ### C83 -/

/-- The sleeping notifications of a host. -/
def napsOf (h : Nat) (l : List (Nat × Ntf × Nat)) : List (Nat × Ntf) :=
  l.filterMap fun x => if x.1 = h then some (x.2.2, x.2.1) else none

theorem promised_append (h : Nat) (a b : List (Nat × Label)) : promised h (a ++ b) = promised h a ++ promised h b := by
  unfold promised; exact List.flatMap_append

theorem handed_append (h : Nat) (a b : List (Nat × Label)) : handed h (a ++ b) = handed h a ++ handed h b := by
  unfold handed; exact List.filterMap_append

theorem lastTime_append (a : List (Nat × Label)) (t : Nat) (l : Label) : lastTime (a ++ [(t, l)]) = t := by
  induction a with
  | nil => rfl
  | cons x a ih =>
    cases a with
    | nil => rfl
    | cons y a => exact ih

theorem lastTime_run {late : Nat} {ls : List (Nat × Label)} {s : Clock} (hr : Clock.Run late .new ls s) : lastTime ls = s.now := by
  cases hr with
  | nil => rfl
  | step _ _ _ _ hst => rw [lastTime_append, (clock_step hst).2]

theorem napsOf_out (h t : Nat) (ev : Pica.Event) :
    napsOf h (ev.out.filterMap (Clock.nap t)) = promised h [(t, .process ev)] := by
  unfold promised
  rw [List.flatMap_singleton]
  dsimp only
  generalize ev.out = out
  induction out with
  | nil => rfl
  | cons o out ih =>
    have e : effectsOf h (o :: out) = effectsOf h [o] ++ effectsOf h out := by
      unfold effectsOf
      rw [← List.filterMap_append]
      rfl
    rw [e, List.filterMap_append, ← ih]
    unfold napsOf
    rw [show ∀ (a : Out) l, a :: l = [a] ++ l from fun _ _ => rfl, List.filterMap_append, List.filterMap_append]
    congr 1
    cases o with
    | effect k x =>
      by_cases hk : k = h
      · cases x <;> simp [effectsOf, Clock.nap, Clock.ms, hk]
      · cases x <;> simp [effectsOf, Clock.nap, Clock.ms, hk]
    | _ => rfl

/-- What a step does to the promises and the notifications. -/
theorem nap_step {t : Nat} {s u : Clock} {l : Label} (hst : Clock.Step t s l u) (h : Nat) :
    (handed h [(t, l)] = [] ∧ (napsOf h u.naps).Perm (napsOf h s.naps ++ promised h [(t, l)])) ∨
    ∃ n due, handed h [(t, l)] = [(t, n)] ∧ promised h [(t, l)] = [] ∧ due ≤ t ∧ (h, n, due) ∈ s.naps ∧
      (napsOf h s.naps).Perm ((due, n) :: napsOf h u.naps) := by
  cases hst with
  | plain hp _ =>
    refine .inl ⟨?_, ?_⟩
    · cases l <;> first | rfl | cases hp
    · have e : promised h [(t, l)] = [] := by cases l <;> first | rfl | cases hp
      rw [e, List.append_nil]
  | tick => exact .inl ⟨rfl, by rw [show promised h [(t, Label.tick _)] = [] from rfl, List.append_nil]⟩
  | @notifies k n due l' _ hp hd _ =>
    have hp' := hp.filterMap fun x : Nat × Ntf × Nat => if x.1 = h then some (x.2.2, x.2.1) else none
    by_cases hk : k = h
    · subst hk
      refine .inr ⟨n, due, by simp [handed], rfl, hd, hp.mem_iff.mpr List.mem_cons_self, ?_⟩
      simpa [napsOf] using hp'
    · refine .inl ⟨by simp [handed, hk], ?_⟩
      rw [show promised h [(t, Label.notifies k n)] = [] from rfl, List.append_nil]
      simpa [napsOf, hk] using hp'.symm
  | @process ev _ _ =>
    refine .inl ⟨rfl, ?_⟩
    rw [← napsOf_out]
    unfold napsOf
    rw [List.filterMap_append]

theorem mem_napsOf {h due : Nat} {n : Ntf} {l : List (Nat × Ntf × Nat)} : (due, n) ∈ napsOf h l ↔ (h, n, due) ∈ l := by
  unfold napsOf
  rw [List.mem_filterMap]
  constructor
  · rintro ⟨⟨k, m, d⟩, hm, he⟩
    dsimp only at he
    split at he
    · rename_i hk; cases he; cases hk; exact hm
    · cases he
  · intro hm
    exact ⟨_, hm, by simp⟩

theorem naps_future {late : Nat} {ls : List (Nat × Label)} {s : Clock} (hr : Clock.Run late .new ls s) :
    ∀ x ∈ s.naps, s.now ≤ x.2.2 + late := by
  cases hr with
  | nil => intro x hx; cases hx
  | @step r _ _ t l _ _ _ hp hst =>
    cases hst with
    | plain => exact hp
    | tick => exact hp
    | notifies hperm _ _ =>
      intro x hx
      exact hp x (hperm.mem_iff.mpr (List.mem_cons_of_mem _ hx))
    | @process ev _ _ =>
      intro x hx
      rcases List.mem_append.mp hx with hx | hx
      · exact hp x hx
      · obtain ⟨o, -, ho⟩ := List.mem_filterMap.mp hx
        unfold Clock.nap at ho
        split at ho
        · cases ho
          exact Nat.le_trans (Nat.le_add_right _ _) (Nat.le_add_right _ _)
        · cases ho

/-- C83: in every schedule with times, the delayed notifications put on the channel to a host are some of those its device has
scheduled, each once; each comes no earlier than its delay after the command that caused it and at most `late` after that;
and the others are not overdue by more. -/
theorem C83_window (late : Nat) (ls : List (Nat × Label)) (s : Clock) (hr : Clock.Run late .new ls s) (h : Nat) :
    ∃ kept open', List.Forall₂ (fun g p : Nat × Ntf => g.2 = p.2 ∧ p.1 ≤ g.1 ∧ g.1 ≤ p.1 + late) (handed h ls) kept ∧
      (kept ++ open').Perm (promised h ls) ∧ ∀ p ∈ open', lastTime ls ≤ p.1 + late := by
  have main : ∃ kept, List.Forall₂ (fun g p : Nat × Ntf => g.2 = p.2 ∧ p.1 ≤ g.1 ∧ g.1 ≤ p.1 + late) (handed h ls) kept ∧
      (kept ++ napsOf h s.naps).Perm (promised h ls) := by
    induction hr with
    | nil => exact ⟨[], .nil, .nil⟩
    | @step r u ls t l hr hs ht hp hst ih =>
      obtain ⟨kept, h1, h2⟩ := ih
      rw [handed_append, promised_append]
      rcases nap_step hst h with ⟨hg, hn⟩ | ⟨n, due, hg, hpr, hd, hm, hn⟩
      · refine ⟨kept, by rw [hg, List.append_nil]; exact h1, ?_⟩
        refine (hn.append_left kept).trans ?_
        rw [← List.append_assoc]
        exact h2.append_right _
      · refine ⟨kept ++ [(due, n)], ?_, ?_⟩
        · rw [hg]
          exact List.rel_append h1 (.cons ⟨rfl, hd, hp _ hm⟩ .nil)
        · rw [hpr, List.append_nil, List.append_assoc]
          exact (hn.symm.append_left kept).trans h2
  obtain ⟨kept, h1, h2⟩ := main
  refine ⟨kept, _, h1, h2, ?_⟩
  rintro ⟨due, n⟩ hx
  rw [lastTime_run hr]
  exact naps_future hr _ (mem_napsOf.mp hx)

/-- C83: notifications of any kind `f` whose delays end more than `late` apart, in the order of the commands, arrive in this
order. -/
theorem C83_order (late : Nat) (ls : List (Nat × Label)) (s : Clock) (hr : Clock.Run late .new ls s) (h : Nat) (f : Ntf → Bool)
    (hgap : ((promised h ls).filter fun p => f p.2).Pairwise fun a b => a.1 + late < b.1) :
    ((handed h ls).filter fun g => f g.2).map Prod.snd <+: ((promised h ls).filter fun p => f p.2).map Prod.snd := by
  have main : ∃ old new, (promised h ls).filter (fun p => f p.2) = old ++ new ∧
      new.Perm ((napsOf h s.naps).filter fun p => f p.2) ∧
      ((handed h ls).filter fun g => f g.2).map Prod.snd = old.map Prod.snd := by
    induction hr with
    | nil => exact ⟨[], [], rfl, .nil, rfl⟩
    | @step r u ls t l hr hs ht hp hst ih =>
      rw [promised_append, List.filter_append] at hgap
      obtain ⟨old, new, h1, h2, h3⟩ := ih (List.pairwise_append.mp hgap).1
      rw [handed_append, promised_append, List.filter_append, List.filter_append]
      rcases nap_step hst h with ⟨hg, hn⟩ | ⟨n, due, hg, hpr, hd, hm, hn⟩
      · refine ⟨old, new ++ (promised h [(t, l)]).filter fun p => f p.2, by rw [h1, List.append_assoc], ?_, ?_⟩
        · refine .trans ?_ (hn.filter _).symm
          rw [List.filter_append]
          exact h2.append_right _
        · rw [hg, List.filter_nil, List.append_nil, h3]
      · rw [hg, hpr, List.filter_nil, List.append_nil]
        have hn' := hn.filter fun p => f p.2
        cases hf : f n with
        | false =>
          refine ⟨old, new, h1, ?_, ?_⟩
          · rw [List.filter_cons_of_neg (by simp [hf])] at hn'
            exact h2.trans hn'
          · rw [List.filter_cons_of_neg (by simp [hf]), List.filter_nil, List.append_nil, h3]
        | true =>
          rw [List.filter_cons_of_pos (by simp [hf])] at hn'
          have hin : (due, n) ∈ new := (h2.trans hn').mem_iff.mpr List.mem_cons_self
          cases new with
          | nil => cases hin
          | cons x new =>
            have hx : x = (due, n) := by
              rcases List.mem_cons.mp hin with e | hin
              · exact e.symm
              · exfalso
                have hord := (List.pairwise_append.mp (h1 ▸ (List.pairwise_append.mp hgap).1)).2.1
                have hlt := (List.pairwise_cons.mp hord).1 _ hin
                have hxm : x ∈ napsOf h r.naps := (List.mem_filter.mp (h2.mem_iff.mp List.mem_cons_self)).1
                have := hp _ (mem_napsOf.mp hxm)
                dsimp only at hlt this
                omega
            subst hx
            refine ⟨old ++ [(due, n)], new, by rw [h1, List.append_assoc]; rfl, ?_, ?_⟩
            · exact (List.perm_cons _).mp (h2.trans hn')
            · rw [List.filter_cons_of_pos (by simp [hf]), List.filter_nil, List.map_append, List.map_append, h3]; rfl
  obtain ⟨old, new, h1, -, h3⟩ := main
  rw [h1, h3, List.map_append]
  exact List.prefix_append _ _

/-- The delay of a notification in milliseconds. -/
def delayOf : Ntf → Nat
  | .sessionStatus _ _ _ => 1
  | _ => 5

/-- Every notification is scheduled with the delay of its kind. -/
def Prompt (es : List Effect) : Prop := ∀ d n, .notify d n ∈ es → d = delayOf n

theorem prompt_append {a b : List Effect} (ha : Prompt a) (hb : Prompt b) : Prompt (a ++ b) := by
  intro d n h
  rcases List.mem_append.mp h with h | h
  exacts [ha d n h, hb d n h]

theorem prompt_nil : Prompt [] := by intro d n h; cases h

theorem prompt_one {d : Nat} {n : Ntf} (h : d = delayOf n) : Prompt [.notify d n] := by
  intro d' n' h'
  cases List.mem_singleton.mp h'
  exact h

theorem prompt_abort (o : Option Nat) : Prompt (o.toList.map .abortTimer) := by
  cases o with
  | none => exact prompt_nil
  | some t => intro d n h; cases List.mem_singleton.mp h

theorem prompt_benign {sid : UInt32} {es : List Effect} (h : Benign sid es) : Prompt es := by
  intro d n hm
  rcases h _ hm with ⟨_, _, e⟩ | ⟨l, e⟩
  · cases e
  · cases e; rfl

theorem prompt_drop (s : Session) : Prompt s.drop := by
  rw [Session.drop_eq]
  refine prompt_append (prompt_abort _) ?_
  split
  · exact prompt_nil
  · exact prompt_one rfl

theorem prompt_dropSessions (d : Device) : Prompt d.dropSessions := by
  intro t n h
  obtain ⟨s, -, hs⟩ := List.mem_flatMap.mp h
  exact prompt_drop s t n hs

theorem prompt_session {tid dh : Nat} {sid : UInt32} {k : Kind} {o o' : Option Session} {es : List Effect}
    (h : SessMove tid sid dh k o es o') : Prompt es := by
  cases h with
  | keep => exact prompt_nil
  | create => exact prompt_one rfl
  | replace s => exact prompt_drop s
  | replaceActive s => exact prompt_drop s
  | remove s => exact prompt_drop s
  | removeActive s => exact prompt_drop s
  | configure => exact prompt_one rfl
  | reconfigure => exact prompt_nil
  | multicast _ _ _ _ hb => exact prompt_benign hb
  | emptiedIdle _ _ _ hb => exact prompt_benign hb
  | emptiedActive _ _ _ hb => exact prompt_append (prompt_benign hb) (prompt_one rfl)
  | start =>
    intro d n h
    rcases List.mem_cons.mp h with h | h
    · cases h
    · cases List.mem_singleton.mp h; rfl
  | stop => exact prompt_append (prompt_abort _) (prompt_one rfl)
  | data => exact prompt_nil
  | round => exact prompt_nil

theorem prompt_stateNtf (a b : DeviceState) : Prompt (stateNtf a b) := by
  unfold stateNtf
  split
  · exact prompt_nil
  · exact prompt_one rfl

theorem prompt_count {d : Device} {ed : List Effect} {n : Nat} {st : DeviceState} {k : Kind} (h : CountMove d ed n st k) :
    Prompt ed := by
  cases k with
  | quiet => rw [h.2.2]; exact prompt_nil
  | start => rw [h.2.2]; exact prompt_stateNtf _ _
  | release =>
    have := h.2
    split at this
    · rw [this.2]; exact prompt_stateNtf _ _
    · rw [this.2]; exact prompt_nil
  | leak => rw [h.2.2]; exact prompt_nil

theorem prompt_dev {tid : Nat} {sc : Scope} {d d' : Device} {e : List Effect} (h : DevMove tid sc d e d') : Prompt e := by
  cases h with
  | reset =>
    refine prompt_append (prompt_dropSessions d) ?_
    exact prompt_one rfl
  | session _ _ _ _ _ _ _ _ hs hc he =>
    rcases he with rfl | rfl
    · exact prompt_append (prompt_session hs) (prompt_count hc)
    · exact prompt_append (prompt_count hc) (prompt_session hs)
  | config => exact prompt_nil
  | reorder => exact prompt_nil

/-- Session status notifications are delayed by 1 ms, all others by 5 ms. -/
theorem prompt_step {p p' : Pica} {env : Env} {c : Command} {out : List Out} (hi : p.PInv)
    (h : p.step env c = .ok (p', out)) (x : Nat) : Prompt (effectsOf x out) := by
  have hd := Pica.step_dev hi h x
  generalize p.devices.get? x = o at hd
  generalize p'.devices.get? x = o' at hd
  generalize effectsOf x out = es at hd ⊢
  cases hd with
  | move d d' _ hm => exact prompt_dev hm
  | connect => exact prompt_one rfl
  | disconnect d => exact prompt_dropSessions d
  | absent => exact prompt_nil

theorem promised_scheduled (h : Nat) (ls : List (Nat × Label)) :
    (promised h ls).map Prod.snd = scheduled h (ls.map Prod.snd) := by
  induction ls with
  | nil => rfl
  | cons x ls ih =>
    rw [show ∀ (a : Nat × Label) l, a :: l = [a] ++ l from fun _ _ => rfl, promised_append, List.map_append, ih, List.map_append]
    have e : ∀ a b, scheduled h (a ++ b) = scheduled h a ++ scheduled h b := by
      intro a b
      unfold scheduled processed historyOf
      rw [List.filterMap_append, List.flatMap_append, List.filterMap_append]
    rw [e]
    congr 1
    obtain ⟨t, l⟩ := x
    cases l with
    | process ev =>
      have e : scheduled h [Label.process ev] = (effectsOf h ev.out).filterMap noticeIn := by
        unfold scheduled processed historyOf
        simp
      rw [List.map_cons, List.map_nil, e]
      unfold promised
      rw [List.flatMap_singleton, List.map_filterMap]
      refine List.filterMap_congr fun x _ => ?_
      cases x <;> rfl
    | _ => rfl

theorem handed_arrived (h : Nat) (ls : List (Nat × Label)) : (handed h ls).map Prod.snd = arrived h (ls.map Prod.snd) := by
  unfold handed arrived
  rw [List.map_filterMap, List.filterMap_map]
  refine List.filterMap_congr fun x _ => ?_
  obtain ⟨t, l⟩ := x
  cases l with
  | notifies k n => dsimp only [Function.comp]; split <;> rfl
  | _ => rfl

theorem changes_append (h : Nat) (sid : UInt32) (a b : List (Nat × Label)) :
    changes h sid (a ++ b) = changes h sid a ++ changes h sid b := by unfold changes; exact List.flatMap_append

theorem promised_changes {late : Nat} {ls : List (Nat × Label)} {s : Clock} (hr : Clock.Run late .new ls s) (h : Nat) (sid : UInt32) :
    ((promised h ls).filter fun p => (statusIn sid p.2).isSome).map Prod.fst = (changes h sid ls).map (· + 1000) := by
  induction hr with
  | nil => rfl
  | @step r u ls t l hr hs ht hp hst ih =>
    rw [promised_append, changes_append, List.filter_append, List.map_append, List.map_append, ih]
    congr 1
    cases l with
    | process ev =>
      have hpr := prompt_step (reachable_inv ⟨_, clock_run hr⟩).pica (process_pica (clock_step hst).1).1 h
      unfold promised changes
      simp only [List.flatMap_singleton]
      generalize effectsOf h ev.out = es at hpr
      induction es with
      | nil => rfl
      | cons x es ih =>
        have ih := ih fun d n hm => hpr d n (List.mem_cons_of_mem _ hm)
        unfold statusNtfs at ih ⊢
        cases x with
        | notify d n =>
          have hd := hpr d n List.mem_cons_self
          cases n with
          | sessionStatus id st r =>
            have hd : d = 1 := hd
            subst hd
            by_cases hid : id = sid
            · simp only [List.filterMap_cons, hid, if_true, List.map_cons]
              rw [List.filter_cons_of_pos (by simp [statusIn]), List.map_cons, ih]
            · simp only [List.filterMap_cons, hid, if_false]
              rw [List.filter_cons_of_neg (by simp [statusIn, hid])]
              exact ih
          | _ => exact ih
        | _ => exact ih
    | _ => rfl

/-- C83: a session that changes its state more than `late` after the last change: the host is told of the states in the order in
which the session went through them, beginning with DEINIT and along the life cycle. -/
theorem C83_states (late : Nat) (ls : List (Nat × Label)) (s : Clock) (hr : Clock.Run late .new ls s) (h : Nat) (sid : UInt32)
    (hgap : (changes h sid ls).Pairwise fun a b => a + late < b) :
    ∃ ch : List SessionState, List.IsChain Allowed (sessionStateDeinit :: ch) ∧
      (sessionStateDeinit :: ch).getLast (by simp) = stateAt (s.sys.pica.devices.get? h) sid ∧
      (handed h ls).filterMap (fun g => statusIn sid g.2) <+: ch := by
  obtain ⟨h1, h2⟩ := C19_history s.sys.pica _ (run_processed (clock_run hr)) h sid
  refine ⟨_, h1, h2, ?_⟩
  have hp : ((promised h ls).filter fun p => (statusIn sid p.2).isSome).Pairwise fun a b => a.1 + late < b.1 := by
    have := promised_changes hr h sid
    rw [← List.pairwise_map (f := Prod.fst) (R := fun a b => a + late < b), this, List.pairwise_map]
    exact hgap.imp fun h => by omega
  have := (C83_order late ls s hr h (fun n => (statusIn sid n).isSome) hp).filterMap (statusIn sid)
  rw [statusNtfs_eq]
  have e : ∀ l : List (Nat × Ntf), ((l.filter fun p => (statusIn sid p.2).isSome).map Prod.snd).filterMap (statusIn sid) =
      (l.map Prod.snd).filterMap (statusIn sid) := by
    intro l
    induction l with
    | nil => rfl
    | cons x l ih =>
      cases hx : statusIn sid x.2 with
      | none => rw [List.filter_cons_of_neg (by simp [hx]), List.map_cons, List.filterMap_cons_none hx, ih]
      | some y => rw [List.filter_cons_of_pos (by simp [hx]), List.map_cons, List.map_cons, List.filterMap_cons_some hx,
          List.filterMap_cons_some hx, ih]
  rw [e, e, promised_scheduled] at this
  rw [show (handed h ls).filterMap (fun g => statusIn sid g.2) = ((handed h ls).map Prod.snd).filterMap (statusIn sid) by
    rw [List.filterMap_map]; rfl]
  exact this

/-- C83: the distance is needed: with two changes 50 µs apart and notifications up to 100 µs late, IDLE may arrive before
INIT. -/
theorem C83_close : ∃ ls s, Clock.Run 100 .new ls s ∧ changes 0 7 ls = [200, 250] ∧
    (handed 0 ls).filterMap (fun g => statusIn 7 g.2) = [sessionStateIdle, sessionStateInit] := by
  obtain ⟨ls, s, hr, hf⟩ := Ex.exists_clocked (late := 100)
    (as := Ex.at' 0 [.request .connect, .process] ++ Ex.at' 100 (Ex.send 0 Ex.reset) ++ Ex.at' 200 (Ex.send 0 (Ex.sessionInit 7 1)) ++
      Ex.at' 250 (Ex.send 0 (Ex.setApp 7 8 Ex.controller)) ++ Ex.at' 1250 [.notifies 3, .notifies 2])
    (f := fun ls _ => decide (changes 0 7 ls = [200, 250]) &&
      decide ((handed 0 ls).filterMap (fun g => statusIn 7 g.2) = [sessionStateIdle, sessionStateInit])) (by decide +kernel)
  simp only [Bool.and_eq_true, decide_eq_true_eq] at hf
  exact ⟨ls, s, hr, hf⟩

/-- A host that takes its time: all hypotheses of `C83_states` and `C83_order` are met and it is told of three states. -/
example : ∃ ls s, Clock.Run 100 .new ls s ∧ (changes 0 7 ls).Pairwise (fun a b => a + 100 < b) ∧
    (handed 0 ls).map Prod.fst = [5000, 5100, 6300, 7000, 8100] ∧
    (handed 0 ls).filterMap (fun g => statusIn 7 g.2) = [sessionStateInit, sessionStateIdle, sessionStateDeinit] := by
  obtain ⟨ls, s, hr, hf⟩ := Ex.exists_clocked (late := 100)
    (as := Ex.at' 0 [.request .connect, .process] ++ Ex.at' 100 (Ex.send 0 Ex.reset) ++ Ex.at' 5000 [.notifies 0] ++
      Ex.at' 5100 [.notifies 0] ++ Ex.at' 5200 (Ex.send 0 (Ex.sessionInit 7 1)) ++
      Ex.at' 6000 (Ex.send 0 (Ex.setApp 7 8 Ex.controller)) ++ Ex.at' 6300 [.notifies 0] ++ Ex.at' 7000 [.notifies 0] ++
      Ex.at' 7100 (Ex.send 0 (Ex.sessionDeinit 7)) ++ Ex.at' 8100 [.notifies 0])
    (f := fun ls _ => decide ((changes 0 7 ls).Pairwise (fun a b => a + 100 < b)) &&
      decide ((handed 0 ls).map Prod.fst = [5000, 5100, 6300, 7000, 8100]) &&
      decide ((handed 0 ls).filterMap (fun g => statusIn 7 g.2) = [sessionStateInit, sessionStateIdle, sessionStateDeinit]))
    (by decide +kernel)
  simp only [Bool.and_eq_true, decide_eq_true_eq] at hf
  exact ⟨ls, s, hr, hf.1.1, hf.1.2, hf.2⟩

end Pica.Props

import Verif.Proofs.TestsPlan
/-! The hosts of the tests. -/

set_option linter.dupNamespace false

namespace Pica.Tests
open Spec SessionState

/-! ### The host -/

/-- Once the host has read what is in its queues and arrived by `hi` it has `rest` to do. It may have got what it expects
after a statement that still waits for data. -/
inductive Leaves (hi : Nat) : List (Nat × Bytes) → List (Nat × Bytes) → List Statement → List Statement → Prop
  | done {cs ds : List (Nat × Bytes)} {rest : List Statement} : (rest ≠ [] → cs = []) →
      (∀ o n, .expect (.data o) n ∈ rest → ds = []) → Leaves hi cs ds rest rest
  | control {c : Nat × Bytes} {cs ds : List (Nat × Bytes)} {x : Expected} {n : Nat} {todo rest : List Statement} : x.isData = false →
      accepts x c.2 = true → c.1 ≤ hi → Leaves hi cs ds todo rest → Leaves hi (c :: cs) ds (.expect x n :: todo) rest
  | data {d : Nat × Bytes} {cs ds : List (Nat × Bytes)} {o : Py.Obj} {n : Nat} {todo rest : List Statement} :
      accepts (.data o) d.2 = true → d.1 ≤ hi → Leaves hi cs ds todo rest → Leaves hi cs (d :: ds) (.expect (.data o) n :: todo) rest
  | ahead {cs : List (Nat × Bytes)} {o : Py.Obj} {n : Nat} {todo rest : List Statement} : Leaves hi cs [] todo rest →
      Leaves hi cs [] (.expect (.data o) n :: todo) (.expect (.data o) n :: rest)

namespace Leaves
variable {hi hi' : Nat} {cs ds : List (Nat × Bytes)} {todo rest : List Statement}

theorem mono (h : Leaves hi cs ds todo rest) (hl : hi ≤ hi') : Leaves hi' cs ds todo rest := by
  induction h with
  | done h1 h2 => exact .done h1 h2
  | control h1 h2 h3 _ ih => exact .control h1 h2 (Nat.le_trans h3 hl) ih
  | data h1 h2 _ ih => exact .data h1 (Nat.le_trans h2 hl) ih
  | ahead _ ih => exact .ahead ih

/-- The next packet arrives. -/
theorem arrive {x : Expected} {n : Nat} {c : Nat × Bytes} {r : List Statement} (h : Leaves hi cs ds todo r) (e : r = .expect x n :: rest)
    (hx : x.isData = false) (ha : accepts x c.2 = true) (hc : c.1 ≤ hi) : Leaves hi (cs ++ [c]) ds todo rest := by
  induction h with
  | done h1 h2 =>
    subst e
    rw [h1 (by simp)]
    exact .control hx ha hc (.done (fun _ => rfl) fun o n hm => h2 o n (List.mem_cons_of_mem _ hm))
  | control h1 h2 h3 _ ih => exact .control h1 h2 h3 (ih e)
  | data h1 h2 _ ih => exact .data h1 h2 (ih e)
  | ahead => cases e; cases hx

/-- A packet arrives ahead of the data. -/
theorem arriveAhead {o : Py.Obj} {m : Nat} {x : Expected} {n : Nat} {c : Nat × Bytes} {r : List Statement}
    (h : Leaves hi cs ds todo r) (e : r = .expect (.data o) m :: .expect x n :: rest) (hx : x.isData = false)
    (ha : accepts x c.2 = true) (hc : c.1 ≤ hi) : Leaves hi (cs ++ [c]) ds todo (.expect (.data o) m :: rest) := by
  induction h with
  | done h1 h2 =>
    subst e
    rw [h1 (by simp), h2 o m List.mem_cons_self]
    exact .ahead (.control hx ha hc (.done (fun _ => rfl) fun _ _ _ => rfl))
  | control h1 h2 h3 _ ih => exact .control h1 h2 h3 (ih e)
  | data h1 h2 _ ih => exact .data h1 h2 (ih e)
  | ahead h1 => cases e; exact .ahead (h1.arrive rfl hx ha hc)

/-- The data arrive. -/
theorem arriveData {o : Py.Obj} {m : Nat} {d : Nat × Bytes} {r : List Statement} (h : Leaves hi cs ds todo r)
    (e : r = .expect (.data o) m :: rest) (ha : accepts (.data o) d.2 = true) (hc : d.1 ≤ hi) : Leaves hi cs (ds ++ [d]) todo rest := by
  induction h with
  | done h1 h2 =>
    subst e
    rw [h1 (by simp), h2 o m List.mem_cons_self]
    exact .data ha hc (.done (fun _ => rfl) fun _ _ _ => rfl)
  | control h1 h2 h3 _ ih => exact .control h1 h2 h3 (ih e)
  | data h1 h2 _ ih => exact .data h1 h2 (ih e)
  | ahead h1 => cases e; exact .data ha hc h1

/-- Data arrive that nobody waits for. -/
theorem spare {d : List (Nat × Bytes)} (h : Leaves hi cs ds todo rest) (hn : ∀ o n, .expect (.data o) n ∉ rest) :
    Leaves hi cs (ds ++ d) todo rest := by
  induction h with
  | done h1 _ => exact .done h1 fun o n hm => absurd hm (hn o n)
  | control h1 h2 h3 _ ih => exact .control h1 h2 h3 (ih hn)
  | data h1 h2 _ ih => exact .data h1 h2 (ih hn)
  | ahead => exact absurd List.mem_cons_self (hn _ _)

/-- Packets arrive that nobody waits for. -/
theorem extra {c : List (Nat × Bytes)} {r : List Statement} (h : Leaves hi cs ds todo r) (e : r = []) : Leaves hi (cs ++ c) ds todo r := by
  induction h with
  | done _ h2 => exact .done (fun h => absurd e h) h2
  | control h1 h2 h3 _ ih => exact .control h1 h2 h3 (ih e)
  | data h1 h2 _ ih => exact .data h1 h2 (ih e)
  | ahead => cases e

theorem send {c : Message} (h : Leaves hi cs ds (.send c :: todo) rest) :
    rest = .send c :: todo ∧ cs = [] ∧ ∀ o n, .expect (.data o) n ∈ todo → ds = [] := by
  cases h with
  | done h1 h2 => exact ⟨rfl, h1 (by simp), fun o n hm => h2 o n (List.mem_cons_of_mem _ hm)⟩

theorem none (h : Leaves hi cs ds [] rest) : rest = [] := by
  cases h
  rfl

end Leaves

/-- The host waits. -/
def Host.Idle (H : Host) : Prop := ∀ x n l, H.todo = .expect x n :: l → H.box x = []

/-- Statements that begin with one that waits for data. -/
def wantsData : List Statement → Bool
  | .expect x _ :: _ => x.isData
  | _ => false

theorem read_box {hi : Nat} {H : Host} {x : Expected} {n : Nat} {y : Nat × Bytes} {ys : List (Nat × Bytes)} {todo rest : List Statement}
    (h : Leaves hi H.inbox H.data (.expect x n :: todo) rest) (hb : H.box x = y :: ys) :
    accepts x y.2 = true ∧ y.1 ≤ hi ∧ Leaves hi (H.take x ys).inbox (H.take x ys).data todo rest := by
  unfold Host.box at hb
  unfold Host.take
  generalize hc : H.inbox = cs at h hb
  generalize hd : H.data = ds at h hb
  cases h with
  | done h1 h2 =>
    split at hb
    · rename_i hx
      cases x with
      | data o => rw [h2 o n List.mem_cons_self] at hb; cases hb
      | _ => cases hx
    · rw [h1 (by simp)] at hb; cases hb
  | control h1 h2 h3 h4 =>
    rw [if_neg (by simp [h1])] at hb ⊢
    cases hb
    exact ⟨h2, h3, h4⟩
  | data h1 h2 h3 =>
    simp only [Expected.isData, if_true] at hb ⊢
    cases hb
    exact ⟨h1, h2, h3⟩
  | ahead h1 => simp only [Expected.isData, if_true] at hb; cases hb

theorem idle_box {hi : Nat} {H : Host} {x : Expected} {n : Nat} {todo rest : List Statement}
    (h : Leaves hi H.inbox H.data (.expect x n :: todo) rest) (hb : H.box x = []) : ∃ r, rest = .expect x n :: r := by
  unfold Host.box at hb
  generalize hc : H.inbox = cs at h hb
  generalize hd : H.data = ds at h hb
  cases h with
  | done => exact ⟨_, rfl⟩
  | control h1 =>
    rw [if_neg (by simp [h1])] at hb
    cases hb
  | data => simp only [Expected.isData, if_true] at hb; cases hb
  | ahead => exact ⟨_, rfl⟩

/-- The host has `rest` to do once it has read what is in its queues. It has waited since `lo` at the latest. -/
structure Waits (lag now : Nat) (H : Host) (lo : Nat) (rest : List Statement) : Prop where
  ok : H.failed = false
  late : ∃ hi, hi ≤ now ∧ (wantsData rest = false → hi ≤ lo) ∧ H.able ≤ hi ∧ Leaves hi H.inbox H.data H.todo rest ∧
    (H.Idle → H.since ≤ hi + lag)
  idle : H.Idle → lo ≤ H.since

theorem Waits.mono {lag now now' lo : Nat} {H : Host} {rest : List Statement} (h : Waits lag now H lo rest) (hl : now ≤ now') :
    Waits lag now' H lo rest := by
  obtain ⟨hi, h1, h2⟩ := h.late
  exact ⟨h.ok, ⟨hi, Nat.le_trans h1 hl, h2⟩, h.idle⟩

/-- The statement the host waits at. -/
theorem Waits.next {lag now lo : Nat} {H : Host} {rest : List Statement} (h : Waits lag now H lo rest) (hi : H.Idle) :
    (H.todo = [] ∧ rest = []) ∨ (∃ c r, H.todo = .send c :: r ∧ rest = .send c :: r) ∨
      ∃ x n r r', H.todo = .expect x n :: r ∧ rest = .expect x n :: r' := by
  obtain ⟨_, -, -, -, hl, -⟩ := h.late
  cases ht : H.todo with
  | nil => rw [ht] at hl; exact .inl ⟨rfl, hl.none⟩
  | cons st r =>
    rw [ht] at hl
    cases st with
    | send c => exact .inr (.inl ⟨c, r, rfl, hl.send.1⟩)
    | expect x n =>
      obtain ⟨r', e⟩ := idle_box hl (hi x n r ht)
      exact .inr (.inr ⟨x, n, r, r', rfl, e⟩)

theorem hear_of {H : Host} {t : Nat} {p : Packet} {x : Expected} {b : Bytes} (hb : arrives p = [b]) (hd : forData b = x.isData) :
    H.hear t p = if x.isData then { H with data := H.data ++ [(t, b)] } else { H with inbox := H.inbox ++ [(t, b)] } := by
  unfold Host.hear
  rw [hb]
  cases hx : x.isData <;> simp [hd, hx]

theorem Idle.before {H : Host} {t : Nat} {p : Packet} (h : (H.hear t p).Idle) : H.Idle := by
  intro x n l ht
  have := h x n l ht
  unfold Host.box at this ⊢
  split
  · rw [if_pos (by assumption)] at this
    exact (List.append_eq_nil_iff.mp this).1
  · rw [if_neg (by assumption)] at this
    exact (List.append_eq_nil_iff.mp this).1

/-- A packet arrives that is expected next. -/
theorem Waits.arrive {lag lo now t n : Nat} {H : Host} {x : Expected} {rest : List Statement} {p : Packet}
    (h : Waits lag now H lo (.expect x n :: rest)) (hr : Reads x p) (hl : now ≤ t) : Waits lag t (H.hear t p) t rest := by
  obtain ⟨b, hb, hd, ha⟩ := hr
  obtain ⟨hi, h1, h2, h3, h4, h5⟩ := h.late
  have hni : ¬ (H.hear t p).Idle := by
    intro hI
    rcases h.next (Idle.before hI) with ⟨-, e⟩ | ⟨c, r, -, e⟩ | ⟨x', n', r, r', e1, e2⟩
    · cases e
    · cases e
    · cases e2
      have := hI x n r e1
      rw [hear_of hb hd] at this
      unfold Host.box at this
      cases hx : x.isData <;> simp [hx] at this
  refine ⟨h.ok, ⟨t, Nat.le_refl _, fun _ => Nat.le_refl _, ?_, ?_, fun h => absurd h hni⟩, fun h => absurd h hni⟩
  · exact Nat.le_trans h3 (Nat.le_trans h1 hl)
  · have h4' := h4.mono (Nat.le_trans h1 hl)
    rw [hear_of hb hd]
    cases hx : x.isData with
    | false => exact h4'.arrive rfl hx ha (Nat.le_refl _)
    | true =>
      cases x with
      | data o => exact h4'.arriveData rfl ha (Nat.le_refl _)
      | _ => cases hx

/-- A packet arrives that is expected after the data. -/
theorem Waits.arriveAhead {lag lo now t n m : Nat} {H : Host} {o : Py.Obj} {x : Expected} {rest : List Statement} {p : Packet}
    (h : Waits lag now H lo (.expect (.data o) m :: .expect x n :: rest)) (hx : x.isData = false) (hr : Reads x p) (hl : now ≤ t) :
    Waits lag t (H.hear t p) lo (.expect (.data o) m :: rest) := by
  obtain ⟨b, hb, hd, ha⟩ := hr
  obtain ⟨hi, h1, h2, h3, h4, h5⟩ := h.late
  refine ⟨h.ok, ⟨t, Nat.le_refl _, (fun h => by cases h), ?_, ?_, fun h => ?_⟩, fun hI => h.idle (Idle.before hI)⟩
  · exact Nat.le_trans h3 (Nat.le_trans h1 hl)
  · rw [hear_of hb hd, hx]
    exact (h4.mono (Nat.le_trans h1 hl)).arriveAhead rfl hx ha (Nat.le_refl _)
  · exact Nat.le_trans (h5 (Idle.before h)) (Nat.add_le_add_right (Nat.le_trans h1 hl) _)

/-- A message arrives that is not expected, but does no harm. -/
theorem Waits.spare {lag lo now t : Nat} {H : Host} {rest : List Statement} {p : Packet} (h : Waits lag now H lo rest)
    (hn : rest = [] ∨ ((arrives p).all forData = true ∧ ∀ o n, .expect (.data o) n ∉ rest)) (hl : now ≤ t) :
    Waits lag t (H.hear t p) lo rest := by
  obtain ⟨hi, h1, h2, h3, h4, h5⟩ := h.late
  refine ⟨h.ok, ⟨hi, Nat.le_trans h1 hl, h2, h3, ?_, fun hI => h5 (Idle.before hI)⟩, fun hI => h.idle (Idle.before hI)⟩
  show Leaves hi (H.inbox ++ _) (H.data ++ _) H.todo rest
  rcases hn with rfl | ⟨hp, hn⟩
  · exact (h4.spare (by simp)).extra rfl
  · have : (arrives p).filter (fun b => !forData b) = [] := by
      rw [List.filter_eq_nil_iff]
      intro b hb
      simp [List.all_eq_true.mp hp b hb]
    rw [this, List.map_nil, List.append_nil]
    exact h4.spare hn

/-- A packet is read. -/
theorem Waits.get {lag lo now t n : Nat} {H : Host} {x : Expected} {rest todo : List Statement} {y : Nat × Bytes} {ys : List (Nat × Bytes)}
    (h : Waits lag now H lo rest) (ht : H.todo = .expect x n :: todo) (hi : H.box x = y :: ys) (hl : lo ≤ t) (hn : now ≤ t)
    (hq : t ≤ max H.able y.1 + lag) :
    accepts x y.2 = true ∧ Waits lag t { H.take x ys with todo := todo, since := t, able := max H.able y.1 } lo rest := by
  obtain ⟨hi', h1, h2, h3, h4, h5⟩ := h.late
  rw [ht] at h4
  obtain ⟨g1, g2, g3⟩ := read_box h4 hi
  refine ⟨g1, ?_, ⟨hi', Nat.le_trans h1 hn, h2, Nat.max_le.mpr ⟨h3, g2⟩, g3, fun _ => ?_⟩, fun _ => hl⟩
  · unfold Host.take
    split <;> exact h.ok
  · show t ≤ hi' + lag
    omega

/-- A command is sent. -/
theorem Waits.send {lag lo now t : Nat} {H : Host} {c : Message} {rest todo : List Statement}
    (h : Waits lag now H lo rest) (ht : H.todo = .send c :: todo) :
    rest = .send c :: todo ∧ lo ≤ H.since ∧ H.since ≤ lo + lag ∧ Waits lag t { H with todo := todo, since := t, able := t } t todo := by
  obtain ⟨hi, h1, h2, h3, h4, h5⟩ := h.late
  rw [ht] at h4
  obtain ⟨rfl, g2, g3⟩ := h4.send
  have hI : H.Idle := by
    intro x n l e
    rw [ht] at e
    cases e
  have := h2 rfl
  have := h5 hI
  refine ⟨rfl, h.idle hI, by omega, h.ok, ⟨t, Nat.le_refl _, fun _ => Nat.le_refl _, Nat.le_refl _, ?_, fun _ => Nat.le_add_right _ _⟩, fun _ => Nat.le_refl _⟩
  exact .done (fun _ => g2) g3

/-- The host waits for a packet. -/
theorem Waits.empty {lag lo now n : Nat} {H : Host} {x : Expected} {todo rest : List Statement} (h : Waits lag now H lo rest)
    (ht : H.todo = .expect x n :: todo) (hb : H.box x = []) : (∃ r, rest = .expect x n :: r) ∧ lo ≤ H.since := by
  have hI : H.Idle := by
    intro x' n' l e
    rw [ht] at e
    cases e
    exact hb
  obtain ⟨hi, h1, h2, h3, h4, h5⟩ := h.late
  rw [ht] at h4
  exact ⟨idle_box h4 hb, h.idle hI⟩

/-- The host does not wait for more than `2 * lag` before it sends. -/
theorem Waits.sends {lag lo now t : Nat} {H : Host} {c : Message} {rest r : List Statement} (h : Waits lag now H lo rest)
    (hq : H.Quick lag t) (e : rest = .send c :: r) : t ≤ lo + 2 * lag := by
  obtain ⟨hi, h1, h2, h3, h4, h5⟩ := h.late
  obtain ⟨q1, q2⟩ := hq h.ok
  have := h2 (by rw [e]; rfl)
  cases ht : H.todo with
  | nil => rw [ht] at h4; rw [h4.none] at e; cases e
  | cons st todo =>
    rw [ht] at h4
    cases st with
    | send c' =>
      have := q1 c' todo ht
      have := h5 (by intro x n l e; rw [ht] at e; cases e)
      omega
    | expect x n =>
      cases hb : H.box x with
      | nil => obtain ⟨r', e'⟩ := idle_box h4 hb; rw [e'] at e; cases e
      | cons y ys =>
        have := q2 x n todo ht y ys hb
        obtain ⟨-, g2, -⟩ := read_box h4 hb
        omega

/-- The host does not take more than `lag` to read the last packets. -/
theorem Waits.ends {lag lo now t : Nat} {H : Host} (h : Waits lag now H lo []) (hq : H.Quick lag t) (hn : H.todo ≠ []) : t ≤ lo + lag := by
  obtain ⟨hi, h1, h2, h3, h4, h5⟩ := h.late
  obtain ⟨q1, q2⟩ := hq h.ok
  have := h2 rfl
  cases ht : H.todo with
  | nil => exact absurd ht hn
  | cons st todo =>
    rw [ht] at h4
    cases st with
    | send c' => cases h4.send.1
    | expect x n =>
      cases hb : H.box x with
      | nil => obtain ⟨r', e'⟩ := idle_box h4 hb; cases e'
      | cons y ys =>
        have := q2 x n todo ht y ys hb
        obtain ⟨-, g2, -⟩ := read_box h4 hb
        omega

end Pica.Tests

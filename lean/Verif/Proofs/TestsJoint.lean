import Verif.Proofs.TestsSteps
/-! What the hosts of a test have to do with each other. -/

set_option linter.dupNamespace false

namespace Pica.Tests
open Spec SessionState

variable {late lag gap t h n : Nat} {plan : Nat → Plan} {s u : Test} {σ : Nat → Status}

/-- What the hosts do. -/
abbrev scripts (plan : Nat → Plan) (h : Nat) : List Statement := (plan h).script

/-- When the connection was accepted. -/
def Status.born : Status → Option Nat
  | .blank => none
  | .at b _ | .done b _ => some b

/-- The hosts of the data transfer test. -/
structure Pair (late lag gap : Nat) (plan : Nat → Plan) (f : Bytes) : Prop where
  give : (plan 0).kind = .give f
  take : (plan 1).kind = .take f
  boss : (plan 0).boss = true
  minion : (plan 1).boss = false
  mac : (plan 1).peer = (plan 0).mac
  size : f.length ≤ 65535
  gap : gap + 5 * late + 12 * lag < 995000
  quick : 4 * late + 17 * lag + pieces f * (3 * lag) < 1000000

/-- What the hosts of the data transfer test have to do with each other. -/
structure Link (gap : Nat) (σ : Nat → Status) : Prop where
  two : ∀ h, 2 ≤ h → σ h = .blank
  order : σ 1 ≠ .blank → ∃ b₀ b₁, (σ 0).born = some b₀ ∧ (σ 1).born = some b₁ ∧ b₀ ≤ b₁ ∧ b₁ ≤ b₀ + gap
  data : ∀ b g, σ 1 = .at b g → ¬Plain g.rest → ∃ b₀ g₀, σ 0 = .at b₀ g₀ ∧ Fresh g₀.dev

/-- All hosts range, or there is a pair. -/
def Links (late lag gap : Nat) (plan : Nat → Plan) (σ : Nat → Status) : Prop :=
  (∀ h, (plan h).kind = .range) ∨ ∃ f, Pair late lag gap plan f ∧ Link gap σ

/-- How far the hosts have got. -/
structure States (plan : Nat → Plan) (late lag : Nat) (s : Test) (σ : Nat → Status) : Prop where
  is : ∀ h, Is late lag s h (σ h)
  okay : ∀ h, Okay (plan h) late lag h (σ h)

/-- How far the hosts have got and what they have to do with each other. -/
def Joint (plan : Nat → Plan) (late lag gap : Nat) (s : Test) : Prop := ∃ σ, States plan late lag s σ ∧ Links late lag gap plan σ

/-- How the host `y` goes on when nothing happens to the others. -/
def Moves (y : Nat) : Status → Status → Prop
  | .at b g, .at b' g' => b' = b ∧ (y = 0 → Fresh g.dev → Fresh g'.dev) ∧ (Plain g.rest → Plain g'.rest)
  | .at b g, .done b' _ => b' = b ∧ (y = 0 → ¬Fresh g.dev)
  | .done b _, .done b' _ => b' = b
  | _, _ => False

theorem Moves.born {z : Nat} {x y : Status} (h : Moves z x y) : x ≠ .blank ∧ y.born = x.born ∧ y ≠ .blank := by
  cases x <;> cases y <;> first | exact h.elim | skip
  · exact ⟨nofun, congrArg some h.1, nofun⟩
  · exact ⟨nofun, congrArg some h.1, nofun⟩
  · exact ⟨nofun, congrArg some h, nofun⟩

theorem Link.moves (hl : Link gap σ) {y : Nat} {st : Status} (hm : Moves y (σ y) st) : Link gap (Function.update σ y st) := by
  obtain ⟨m1, m2, m3⟩ := hm.born
  have hb : ∀ h, (Function.update σ y st h).born = (σ h).born := by
    intro h
    by_cases e : h = y
    · subst e; rw [Function.update_self]; exact m2
    · rw [Function.update_of_ne e]
  have hn : ∀ h, Function.update σ y st h ≠ .blank → σ h ≠ .blank := by
    intro h
    by_cases e : h = y
    · subst e; exact fun _ => m1
    · rw [Function.update_of_ne e]; exact id
  refine ⟨?_, ?_, ?_⟩
  · intro h hh
    have := hl.two h hh
    by_cases e : h = y
    · subst e; exact absurd this m1
    · rw [Function.update_of_ne e]; exact this
  · intro h1
    rw [hb, hb]
    exact hl.order (hn 1 h1)
  · intro b g h1 h2
    have key : ∃ b₀ g₀, σ 0 = .at b₀ g₀ ∧ Fresh g₀.dev := by
      by_cases e : 1 = y
      · subst e
        rw [Function.update_self] at h1
        subst h1
        cases h3 : σ 1 with
        | blank => exact absurd h3 m1
        | done => rw [h3] at hm; exact hm.elim
        | «at» b' g' =>
          rw [h3] at hm
          exact hl.data b' g' h3 fun hp => h2 (hm.2.2 hp)
      · rw [Function.update_of_ne e] at h1
        exact hl.data b g h1 h2
    obtain ⟨b₀, g₀, k1, k2⟩ := key
    by_cases e : 0 = y
    · subst e
      rw [k1] at hm
      rw [Function.update_self]
      cases st with
      | blank => exact hm.elim
      | done => exact absurd k2 (hm.2 rfl)
      | «at» b' g' => exact ⟨b', g', rfl, hm.2.1 rfl k2⟩
    · rw [Function.update_of_ne e]
      exact ⟨b₀, g₀, k1, k2⟩

theorem Links.moves (hl : Links late lag gap plan σ) {y : Nat} {st : Status} (hm : Moves y (σ y) st) :
    Links late lag gap plan (Function.update σ y st) := by
  rcases hl with h | ⟨f, h1, h2⟩
  · exact .inl h
  · exact .inr ⟨f, h1, h2.moves hm⟩

/-- One host goes on and nothing happens to the others. -/
theorem States.update (hs : States plan late lag s σ) {y : Nat} {st : Status} (hin : InTime late lag u.clock.now s)
    (ho : ∀ h, h ≠ y → Same h s u) (hi : Is late lag u y st) (hk : Okay (plan y) late lag y st) :
    States plan late lag u (Function.update σ y st) := by
  constructor
  · intro h
    by_cases e : h = y
    · subst e; rw [Function.update_self]; exact hi
    · rw [Function.update_of_ne e]
      exact (hs.is h).same (ho h e) (hs.okay h).due hin
  · intro h
    by_cases e : h = y
    · subst e; rw [Function.update_self]; exact hk
    · rw [Function.update_of_ne e]; exact hs.okay h

/-- One host goes on and nothing happens to the others. -/
theorem States.move (hs : States plan late lag s σ) (hl : Links late lag gap plan σ) {y : Nat} {st : Status}
    (hin : InTime late lag u.clock.now s) (ho : ∀ h, h ≠ y → Same h s u) (hi : Is late lag u y st) (hk : Okay (plan y) late lag y st)
    (hm : Moves y (σ y) st) : Joint plan late lag gap u := ⟨_, hs.update hin ho hi hk, hl.moves hm⟩

/-- Nothing happens to the hosts. -/
theorem Joint.same (hj : Joint plan late lag gap s) (hin : InTime late lag u.clock.now s) (ho : ∀ h, Same h s u) :
    Joint plan late lag gap u := by
  obtain ⟨σ, h1, h2⟩ := hj
  exact ⟨σ, ⟨fun h => (h1.is h).same (ho h) (h1.okay h).due hin, h1.okay⟩, h2⟩

/-- The three cases. -/
theorem States.at (hs : States plan late lag s σ) (h : Nat) : (σ h = .blank ∧ Blank s h) ∨
    (∃ H g, σ h = .at H.born g ∧ Good (plan h) late lag h H.born g ∧ At late lag s h H g) ∨
    ∃ H lo, σ h = .done H.born lo ∧ (((plan h).Leads → H.born + 1012000 ≤ lo) ∧ lo ≤ H.born + (plan h).bound late lag) ∧ Finished lag s h H lo := by
  have h1 := hs.is h
  have h2 := hs.okay h
  cases e : σ h with
  | blank => rw [e] at h1; exact .inl ⟨rfl, h1⟩
  | «at» b g =>
    rw [e] at h1 h2
    obtain ⟨H, rfl, h1⟩ := h1
    exact .inr (.inl ⟨H, g, rfl, h2, h1⟩)
  | done b lo =>
    rw [e] at h1 h2
    obtain ⟨H, rfl, h1⟩ := h1
    exact .inr (.inr ⟨H, lo, rfl, h2, h1⟩)

/-- How far a host has got. -/
def Holds (plan : Nat → Plan) (late lag : Nat) (s : Test) (h : Nat) : Prop :=
  Blank s h ∨ ∃ H, (∃ g, Good (plan h) late lag h H.born g ∧ At late lag s h H g) ∨
    ∃ lo, (((plan h).Leads → H.born + 1012000 ≤ lo) ∧ lo ≤ H.born + (plan h).bound late lag) ∧ Finished lag s h H lo

theorem Joint.holds (hj : Joint plan late lag gap s) (h : Nat) : Holds plan late lag s h := by
  obtain ⟨σ, h1, -⟩ := hj
  rcases h1.at h with ⟨-, hb⟩ | ⟨H, g, -, h2, h3⟩ | ⟨H, lo, -, h2, h3⟩
  · exact .inl hb
  · exact .inr ⟨H, .inl ⟨g, h2, h3⟩⟩
  · exact .inr ⟨H, .inr ⟨lo, h2, h3⟩⟩

theorem wants_plain {l : List Statement} (h : wantsData l = true) : ¬Plain l := by
  intro hp
  cases l with
  | nil => cases h
  | cons x l =>
    cases x with
    | send => cases h
    | expect x n =>
      cases x with
      | data o => exact hp o n List.mem_cons_self
      | _ => cases h

theorem Pair.leads {f : Bytes} (hp : Pair late lag gap plan f) : (plan 0).Leads := by
  intro f'
  rw [hp.give]
  simp

theorem Pair.slack {f : Bytes} (hp : Pair late lag gap plan f) : (plan 0).slack lag = pieces f * (3 * lag) := by
  unfold Plan.slack Plan.n
  rw [hp.give]

/-- A host that waits for data does not do so for long. -/
theorem States.sooner (hs : States plan late lag s σ) (hl : Links late lag gap plan σ) (hlate : late < 4000) (hin : InTime late lag t s)
    {y b : Nat} {g : Stage} (hy : σ y = .at b g) (hw : ¬Plain g.rest) :
    (∃ f, Pair late lag gap plan f) ∧ y = 1 ∧ t ≤ b + (plan y).limit late lag := by
  have hgood : Good (plan y) late lag y b g := by have := hs.okay y; rw [hy] at this; exact this
  rcases hl with h1 | ⟨f, h1, h2⟩
  · exact absurd (hgood.plain fun f => by rw [h1 y]; simp) hw
  · have hy1 : y = 1 := by
      by_contra hne
      by_cases h0 : y = 0
      · subst h0
        exact absurd (hgood.plain h1.leads) hw
      · have := h2.two y (by omega)
        rw [hy] at this
        cases this
    subst hy1
    obtain ⟨b₀, g₀, e1, e2⟩ := h2.data b g hy hw
    obtain ⟨b₀', b₁, e3, e4, e5, -⟩ := h2.order (by rw [hy]; nofun)
    rw [hy] at e4
    rw [e1] at e3
    cases e3
    cases e4
    have hg0 : Good (plan 0) late lag 0 b₀ g₀ := by have := hs.okay 0; rw [e1] at this; exact this
    have hi0 := hs.is 0
    rw [e1] at hi0
    obtain ⟨H₀, -, ha⟩ := hi0
    have := hg0.soon hlate e2 (ha.deadline hin hg0.due) h1.leads
    rw [h1.slack] at this
    refine ⟨⟨f, h1⟩, rfl, ?_⟩
    rw [Plan.limit_take h1.take]
    omega

theorem States.soon (hs : States plan late lag s σ) (hl : Links late lag gap plan σ) (hlate : late < 4000) (hin : InTime late lag t s)
    {y b : Nat} {g : Stage} (hy : σ y = .at b g) (hw : wantsData g.rest = true) : t < b + 2012000 := by
  obtain ⟨⟨f, h1⟩, rfl, h2⟩ := hs.sooner hl hlate hin hy (wants_plain hw)
  rw [Plan.limit_take h1.take] at h2
  have := h1.quick
  omega

theorem Links.file (hl : Links late lag gap plan σ) {y : Nat} (hy : σ y ≠ .blank) :
    (plan y).file.length ≤ 65535 := by
  unfold Plan.file
  rcases hl with h1 | ⟨f, h1, h2⟩
  · rw [h1 y]; exact Nat.zero_le _
  · match y, hy with
    | 0, _ => rw [h1.give]; exact h1.size
    | 1, _ => rw [h1.take]; exact Nat.zero_le _
    | y + 2, hy => exact absurd (h2.two _ (by omega)) hy

/-- The sessions of the tests. -/
theorem Joint.sessions (hj : Joint plan late lag gap s) {h : Nat} {d : Device} (hd : s.clock.sys.pica.devices.get? h = some d) :
    d.sessions = [] ∨ ∃ st seq data cfg k, d = dev₂ h (sess h (plan h).type st seq data cfg k) ∧ cfg.Tame ∧ seq.toNat ≤ 2 ∧
      data.length ≤ 65535 ∧ (st ≠ sessionStateActive → k = none) := by
  obtain ⟨σ, hs, hl⟩ := hj
  rcases hs.at h with ⟨-, hb⟩ | ⟨H, g, e, h1, h2⟩ | ⟨H, lo, -, -, hf⟩
  · rw [hb.dev] at hd; cases hd
  · rw [h2.dev] at hd
    cases hd
    exact h1.sessions (hl.file (by rw [e]; nofun))
  · exact .inl (hf.dev d hd)

theorem look_sess {h : Nat} {sid : UInt32} {y : Session} {ty : SessionType} {st : SessionState} {seq : UInt32} {data : Bytes} {cfg : AppConfig}
    {k : Option Nat} (hy : (dev₂ h (sess h ty st seq data cfg k)).sessions.get? sid = some y) : y = sess h ty st seq data cfg k ∧ sid = 0 := by
  have hy' : AMap.get? [((0 : UInt32), sess h ty st seq data cfg k)] sid = some y := hy
  unfold AMap.get? at hy'
  split at hy'
  · rename_i e
    exact ⟨(Option.some.inj hy').symm, by first | exact e.symm | exact e | exact (beq_iff_eq.mp e).symm⟩
  · cases hy'

theorem Joint.fine (hj : Joint plan late lag gap s) (hd : s.clock.sys.pica.devices.length ≤ 247) : Fine s.clock.sys.pica := by
  refine ⟨?_, hd⟩
  intro h d sid x hd hx
  rcases hj.sessions hd with e | ⟨st, seq, data, cfg, k, rfl, h1, h2, h3, -⟩
  · rw [e] at hx; cases hx
  · rw [(look_sess hx).1]
    exact ⟨h1, h3, h2⟩

end Pica.Tests

import Verif.Spec.Site
import Verif.Proofs.SystemExamples
import Verif.Proofs.Http
/-! Concrete histories of the program of the web server used as witnesses and examples. -/

namespace Pica
namespace Ex
open Pica.Site Spec

/-- What may happen next. Somebody listens. -/
inductive Move where
  | system (a : Act)
  | ask (a : Ask)
  | process
  | event
  | answer (n : Nat)
  | drops (n : Nat)
  | position (mac : MacAddress) (p : Position)

/-- A step of the emulator not seen by the web server. -/
def silent : System.Label → Bool
  | .process _ | .panics _ _ | .request (.createAnchor _) | .request (.destroyAnchor _) => false
  | _ => true

/-- The step, if it is possible. -/
def move (measure : Measure) (s : Site) : Move → Option (Site.Label × Site)
  | .system a =>
    match act s.sys a with
    | some (l, t) => if silent l then some (.system l, { s with sys := t }) else none
    | none => none
  | .ask a =>
    if s.sys.queue.length < queueSize then
      some (.ask a, { s with sys := { s.sys with queue := s.sys.queue ++ [a.command] }, asks := s.asks ++ [a] })
    else none
  | .process =>
    match s.sys.queue with
    | [] => none
    | c :: q =>
      match s.sys.pica.step (s.sys.env (s.web.estimate measure)) c with
      | .ok (p, out) =>
        some (.process ⟨s.sys.env (s.web.estimate measure), c, out⟩,
          out.foldl hear { s with
            sys := out.foldl System.apply { s.sys with pica := p, queue := q, spawned := s.sys.spawned + 1 } })
      | .error _ => none
  | .event =>
    match s.events with
    | [] => none
    | e :: es =>
      if es.length < eventSize then
        some (.event e, { s with
          events := es
          web := (s.web.connection Web.always e).1
          ended := isPanic (s.web.connection Web.always e).2.2 })
      else none
  | .answer n =>
    match s.answers.drop n with
    | [] => none
    | (a, r) :: after =>
      some (.answer n a r, { s with answers := s.answers.take n ++ after, web := (answered s.web Web.always a r).1 })
  | .drops n =>
    match s.answers.drop n with
    | [] => none
    | (a, r) :: after => some (.drops a r, { s with answers := s.answers.take n ++ after })
  | .position mac p => some (.position mac p, { s with web := (s.web.setPosition measure Web.always mac p).1 })

theorem move_step {measure : Measure} {s u : Site} {a : Move} {l : Site.Label} (h : move measure s a = some (l, u)) :
    Site.Step measure s l u := by
  unfold move at h
  cases a with
  | system a =>
    dsimp only at h
    split at h
    · rename_i hl
      split at h
      · rename_i hs
        cases h
        refine .system ?_ (act_step hl)
        unfold silent at hs
        unfold Silent
        split at hs
        all_goals first | (cases hs; done) | skip
        split <;> first | trivial | (exfalso; simp_all)
      · cases h
    · cases h
  | ask a =>
    dsimp only at h
    split at h
    · rename_i hl
      cases h
      refine .ask (.request ?_ hl)
      unfold Ask.command
      split <;> trivial
    · cases h
  | process =>
    dsimp only at h
    split at h
    · cases h
    · rename_i hq
      split at h
      · rename_i hp
        cases h
        exact .process (.process hq hp)
      · cases h
  | event =>
    dsimp only at h
    split at h
    · cases h
    · rename_i he
      split at h
      · rename_i hl
        cases h
        exact .event he (by rw [he]; exact hl)
      · cases h
  | answer n =>
    dsimp only at h
    split at h
    · cases h
    · rename_i a r after hd
      cases h
      have hn : n ≤ s.answers.length := by
        by_contra hc
        rw [List.drop_of_length_le (by omega)] at hd
        cases hd
      have := Site.Step.answer (measure := measure) (s := s) (before := s.answers.take n) (a := a) (r := r) (after := after)
        (heard := Web.always) (by rw [← hd, List.take_append_drop])
      rwa [List.length_take, Nat.min_eq_left hn] at this
  | drops n =>
    dsimp only at h
    split at h
    · cases h
    · rename_i a r after hd
      cases h
      exact .drops (by rw [← hd, List.take_append_drop])
  | position mac p => cases h; exact .position

/-- The step is one of `Tidy`. -/
def neat (s : Site) : Site.Label → Bool
  | .drops _ (.ok _) => false
  | .answer n _ (.ok h) => (s.answers.take n).all fun x => match x.2 with | .ok k => decide (k ≠ h) | .error _ => true
  | _ => true

theorem neat_tidy {s : Site} {l : Site.Label} (h : neat s l = true) : Tidy s l := by
  unfold neat at h
  unfold Tidy
  split at h
  · cases h
  · intro x hx he
    have := List.all_eq_true.mp h x hx
    rw [he] at this
    simp at this
  · split <;> first | trivial | (exfalso; simp_all)

/-- Play a list of steps. -/
def moves (measure : Measure) (s : Site) (ls : List Site.Label) : List Move → Option (List Site.Label × Site × Bool)
  | [] => some (ls, s, true)
  | a :: as =>
    if s.ended || s.sys.stopped then none else
    match move measure s a with
    | some (l, u) => (moves measure u (ls ++ [l]) as).map fun z => (z.1, z.2.1, neat s l && z.2.2)
    | none => none

theorem moves_run {measure : Measure} {as : List Move} {n s u : Site} {ls ls' : List Site.Label} {b : Bool}
    (h : moves measure s ls as = some (ls', u, b)) (hr : Site.Run measure n ls s) : Site.Run measure n ls' u := by
  induction as generalizing s ls b with
  | nil => cases h; exact hr
  | cons a as ih =>
    unfold moves at h
    split at h
    · cases h
    · rename_i hst
      rw [Bool.or_eq_true, not_or] at hst
      cases ha : move measure s a with
      | none => rw [ha] at h; cases h
      | some z =>
        obtain ⟨l, t⟩ := z
        rw [ha] at h
        obtain ⟨⟨l', u', b'⟩, hz, he⟩ := Option.map_eq_some_iff.mp h
        cases he
        exact ih hz (.step hr (by simpa using hst.1) (by simpa using hst.2) (move_step ha))

theorem moves_tidy {measure : Measure} {as : List Move} {s u : Site} {ls ls' : List Site.Label}
    (h : moves measure s ls as = some (ls', u, true)) (hr : TidyRun measure ls s) : TidyRun measure ls' u := by
  induction as generalizing s ls with
  | nil => cases h; exact hr
  | cons a as ih =>
    unfold moves at h
    split at h
    · cases h
    · rename_i hst
      rw [Bool.or_eq_true, not_or] at hst
      cases ha : move measure s a with
      | none => rw [ha] at h; cases h
      | some z =>
        obtain ⟨l, t⟩ := z
        rw [ha] at h
        obtain ⟨⟨l', u', b'⟩, hz, he⟩ := Option.map_eq_some_iff.mp h
        simp only [Prod.mk.injEq, Bool.and_eq_true] at he
        obtain ⟨rfl, rfl, hn, rfl⟩ := he
        exact ih hz (.step hr (by simpa using hst.1) (by simpa using hst.2) (move_step ha) (neat_tidy hn))

theorem exists_moves {measure : Measure} {as : List Move} {f : Site → Bool}
    (h : (moves measure .new [] as).any (fun z => f z.2.1) = true) : ∃ ls s, Site.Run measure .new ls s ∧ f s = true := by
  cases hx : moves measure .new [] as with
  | none => rw [hx] at h; cases h
  | some z => obtain ⟨ls, s, b⟩ := z; rw [hx] at h; exact ⟨ls, s, moves_run hx .nil, h⟩

theorem exists_tidy {measure : Measure} {as : List Move} {f : Site → Bool}
    (h : (moves measure .new [] as).any (fun z => z.2.2 && f z.2.1) = true) : ∃ ls s, TidyRun measure ls s ∧ f s = true := by
  cases hx : moves measure .new [] as with
  | none => rw [hx] at h; cases h
  | some z =>
    obtain ⟨ls, s, b⟩ := z
    rw [hx] at h
    have h' : (b && f s) = true := h
    rw [Bool.and_eq_true] at h'
    obtain ⟨rfl, hf⟩ := h'
    exact ⟨ls, s, moves_tidy hx .nil, hf⟩

end Ex
end Pica

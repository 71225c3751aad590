import Verif.Spec.Stream
import Verif.Proofs.Http
/-! Lemmas about streams of events. -/

namespace Pica
open Spec Web

/-- What holds of a listener when `es` was sent. -/
structure Listener.Ok (t : Listener) (es : List WebEvent) : Prop where
  pre : t.got <+: es
  all : t.lagged = false → t.got ++ t.unread = es
  end_ : t.ended = true → t.lagged = true
  cap : t.unread.length ≤ streamCapacity
  suf : t.unread <:+ es
  full : t.lagged = true → t.unread.length = streamCapacity

theorem Listener.Ok.new : Listener.new.Ok [] := ⟨List.prefix_rfl, fun _ => rfl, nofun, Nat.zero_le _, List.suffix_rfl, nofun⟩

theorem Listener.Ok.send {t : Listener} {es : List WebEvent} (h : t.Ok es) (e : WebEvent) : (t.send e).Ok (es ++ [e]) := by
  unfold Listener.send
  split
  next hl =>
    refine ⟨h.pre.trans (List.prefix_append ..), fun hg => by rw [← h.all hg]; simp, h.end_, by simp; omega, ?_, fun hg => ?_⟩
    · obtain ⟨a, rfl⟩ := h.suf
      exact ⟨a, by simp⟩
    · have := h.full hg
      omega
  next hl =>
    have hc := h.cap
    have hn : (t.unread.tail ++ [e]).length = streamCapacity := by simp; unfold streamCapacity at *; omega
    refine ⟨h.pre.trans (List.prefix_append ..), nofun, fun _ => rfl, hn.le, ?_, fun _ => hn⟩
    obtain ⟨a, ha⟩ := (List.tail_suffix t.unread).trans h.suf
    exact ⟨a, by rw [← ha]; simp⟩

theorem Listener.Ok.read {t : Listener} {es : List WebEvent} (h : t.Ok es) : t.read.Ok es := by
  unfold Listener.read
  split
  · exact h
  · split
    next hg => exact ⟨h.pre, h.all, fun _ => hg, h.cap, h.suf, h.full⟩
    next he hg =>
      have ha := h.all (by simpa using hg)
      split
      · exact h
      next e r hu =>
        rw [hu] at ha
        refine ⟨?_, fun _ => ?_, h.end_, ?_, ?_, fun hg' => absurd hg' hg⟩
        · rw [← ha]; exact ⟨r, by simp⟩
        · rw [← ha]; simp
        · have := h.cap; rw [hu] at this; simp at this ⊢; omega
        · have := h.suf; rw [hu] at this; exact (List.suffix_cons e r).trans this

theorem Listener.Ok.hear {t : Listener} {es : List WebEvent} (h : t.Ok es) (bs : List Beat) :
    (hear t bs).Ok (es ++ sent bs) := by
  induction bs generalizing t es with
  | nil => simpa [Spec.hear, sent] using h
  | cons b bs ih =>
    cases b with
    | send e => have := ih (h.send e); simpa [Spec.hear, sent] using this
    | read => exact ih h.read

theorem listening_ok {measure : Measure} {ok : Web → Listener → WebOp → Prop} {w₀ w : Web} {t : Listener}
    {es : List WebEvent} (h : Listening measure ok w₀ w t es) : t.Ok es := by
  induction h with
  | start => exact .new
  | serve heard op _ _ _ hb ih => rw [← hb]; exact ih.hear _
  | read _ ih => exact ih.read

theorem read_lagged (t : Listener) : t.read.lagged = t.lagged := by
  unfold Listener.read
  repeat' split
  all_goals rfl

theorem read_unread (t : Listener) : t.read.unread.length ≤ t.unread.length := by
  unfold Listener.read
  repeat' split
  all_goals simp_all

/-- Nothing is lost if the channel has room for all that comes. -/
theorem hear_room {t : Listener} {bs : List Beat} (hg : t.lagged = false)
    (hr : t.unread.length + (sent bs).length ≤ streamCapacity) : (hear t bs).lagged = false := by
  induction bs generalizing t with
  | nil => exact hg
  | cons b bs ih =>
    cases b with
    | send e =>
      simp only [sent, List.length_cons] at hr
      have hl : t.unread.length < streamCapacity := by omega
      refine ih ?_ ?_ <;> rw [Listener.send, if_pos hl]
      · exact hg
      · simp; omega
    | read =>
      refine ih ((read_lagged t).trans hg) ?_
      have := read_unread t
      simp only [sent] at hr
      omega

theorem hear_lagged {t : Listener} (bs : List Beat) (hg : t.lagged = true) : (hear t bs).lagged = true := by
  induction bs generalizing t with
  | nil => exact hg
  | cons b bs ih =>
    cases b with
    | send e => exact ih (by unfold Listener.send; split <;> first | exact hg | rfl)
    | read => exact ih ((read_lagged t).trans hg)

/-- Without a read in between, something is lost if there is no room. -/
theorem hear_burst {t : Listener} {es : List WebEvent} (hr : streamCapacity < t.unread.length + es.length)
    (hc : t.unread.length ≤ streamCapacity) : (hear t (es.map .send)).lagged = true := by
  induction es generalizing t with
  | nil => simp at hr; omega
  | cons e es ih =>
    simp only [List.length_cons] at hr
    by_cases hl : t.unread.length < streamCapacity
    · refine ih ?_ ?_ <;> rw [Listener.send, if_pos hl] <;> simp <;> omega
    · have : (t.send e).lagged = true := by unfold Listener.send; rw [if_neg hl]
      exact hear_lagged (es.map .send) this

theorem sent_sends (es : List WebEvent) : sent (es.map .send) = es := by
  induction es with
  | nil => rfl
  | cons e es ih => exact congrArg (e :: ·) ih

theorem neighbors_le (measure : Measure) (heard : Nat → Bool) (device : Info) (n : Nat) (l : List Info) :
    (neighbors measure heard device n l).1.length ≤ 2 * l.countP fun o => decide (o.mac ≠ device.mac) := by
  induction l generalizing n with
  | nil => exact Nat.zero_le _
  | cons o l ih =>
    unfold neighbors
    by_cases h : o.mac ≠ device.mac
    · rw [if_pos h, List.countP_cons_of_pos (by simpa using h)]
      have := ih (n + 2)
      generalize neighbors measure heard device (n + 2) l = z at this
      obtain ⟨zs, zo⟩ := z
      dsimp only at this
      repeat' split
      all_goals simp only [List.length_nil, List.length_cons, Prod.mk.injEq] at *
      all_goals first | omega | (rename_i hz; rw [← hz.1]; omega)
    · rw [if_neg h, List.countP_cons_of_neg (by simpa using h)]
      exact ih n

theorem send_got (t : Listener) (e : WebEvent) : (t.send e).got = t.got := by
  unfold Listener.send
  split <;> rfl

theorem got_sends (t : Listener) (es : List WebEvent) : (hear t (es.map .send)).got = t.got := by
  induction es generalizing t with
  | nil => rfl
  | cons e es ih => exact (ih (t.send e)).trans (send_got t e)

/-- Nothing more is delivered once something was lost. -/
theorem got_lagged {t : Listener} (bs : List Beat) (hg : t.lagged = true) : (hear t bs).got = t.got := by
  induction bs generalizing t with
  | nil => rfl
  | cons b bs ih =>
    cases b with
    | send e =>
      exact (ih (hear_lagged [.send e] hg)).trans (send_got t e)
    | read =>
      refine (ih ((read_lagged t).trans hg)).trans ?_
      unfold Listener.read
      rw [hg]
      split <;> rfl

end Pica

import Verif.Proofs.Stream
import Verif.Props.Http
import Verif.Model.Site
import Verif.Proofs.Map
/-! C108: what a listener of the web server gets, and when it loses its stream. -/

namespace Pica.Props
open Pica.Spec Web

/-- C108: in every history a listener gets the first of the events sent since it came, in their order and without a gap; as
long as nothing was overwritten the rest is waiting for it, and its stream ends only after something was; from then on the
channel holds the last 1024 events for it. -/
theorem C108_in_order (measure : Measure) (w₀ w : Web) (t : Listener) (es : List WebEvent)
    (h : Listening measure (fun _ _ _ => True) w₀ w t es) :
    t.got <+: es ∧ (t.lagged = false → t.got ++ t.unread = es ∧ t.ended = false) ∧
      (t.lagged = true → t.unread <:+ es ∧ t.unread.length = 1024) := by
  obtain ⟨h1, h2, h3, -, h4, h5⟩ := listening_ok h
  refine ⟨h1, fun hg => ⟨h2 hg, ?_⟩, fun hg => ⟨h4, h5 hg⟩⟩
  cases he : t.ended with
  | false => rfl
  | true => rw [h3 he] at hg; cases hg

/-- C108: the number of events a handler sends: one, or one and two more for each device of another address. -/
theorem C108_count (A : Arith) (rotate : Rotate) (w : Web) (op : WebOp) :
    (∀ heard, (serve (A.compute rotate) heard w op).2.1.length ≤
      match op with | .setPosition mac _ => 1 + 2 * others w mac | _ => 1) ∧
    ∀ mac p, op = .setPosition mac p → w.poisoned = false → (AMap.keys w.devices).Nodup →
      (∃ k i, w.devices.get? k = some i ∧ i.mac = mac) →
      (serve (A.compute rotate) always w op).2.1.length = 1 + 2 * others w mac := by
  have one : ∀ (w' : Web) (heard : Nat → Bool) (e : WebEvent) (r : Reply), (w'.announce heard e r).2.1.length ≤ 1 := by
    intro w' heard e r
    unfold announce
    split <;> simp
  constructor
  · intro heard
    cases op with
    | connection e =>
      unfold serve connection
      dsimp only
      split
      · simp
      · cases e <;> exact one ..
    | created m p h =>
      unfold serve created
      dsimp only
      split
      · simp
      · exact one ..
    | destroyed m h =>
      unfold serve destroyed
      dsimp only
      split
      · simp
      · exact one ..
    | getState =>
      unfold serve getState
      dsimp only
      split <;> simp
    | setPosition mac p =>
      unfold serve setPosition
      dsimp only
      split
      · simp
      · cases hpl : place mac p w.devices with
        | none => simp
        | some z =>
          obtain ⟨m', x⟩ := z
          obtain ⟨a, k, i, b, e1, e2, e3, e4⟩ := place_some hpl
          have hx : x.mac = mac := by rw [e3]; exact e2
          have hc : (AMap.values m').countP (fun o => decide (o.mac ≠ x.mac)) = others w mac := by
            unfold others AMap.values
            rw [hx, e1, e4]
            simp [e2, hx]
          have hl := neighbors_le (A.compute rotate) heard x 1 (AMap.values m')
          rw [hc] at hl
          dsimp only
          generalize neighbors (A.compute rotate) heard x 1 (AMap.values m') = z at hl ⊢
          obtain ⟨zs, zo⟩ := z
          dsimp only at hl ⊢
          split
          · cases zo <;> simp <;> omega
          · simp
  · rintro mac p rfl hp hn h
    obtain ⟨w', k, i, ess, -, -, he, -, -, -, hf⟩ := C51_known A rotate w hp mac p h hn
    show (w.setPosition (A.compute rotate) always mac p).2.1.length = _
    rw [he]
    have hl : ∀ (l : List Info) (ess : List (List WebEvent)),
        List.Forall₂ (About (A.compute rotate) { i with position := p }) l ess → ess.flatten.length = 2 * l.length := by
      intro l ess hf
      induction hf with
      | nil => rfl
      | cons h _ ih =>
        obtain ⟨_, _, -, -, rfl⟩ := h
        simp [ih]
        omega
    have := hl _ _ hf
    unfold others
    rw [List.countP_eq_length_filter]
    simp only [List.length_cons]
    omega

/-- C108: with at most 512 devices, a listener that has read all when a handler begins never loses an event, however slowly
it reads while the handler runs. -/
theorem C108_small (A : Arith) (rotate : Rotate) (w₀ w : Web) (t : Listener) (es : List WebEvent)
    (h : Listening (A.compute rotate) (fun w t _ => w.devices.length ≤ 512 ∧ t.unread = []) w₀ w t es) :
    t.got ++ t.unread = es ∧ t.ended = false := by
  have hl : t.lagged = false := by
    induction h with
    | start => rfl
    | @serve w w' t es es' reply bs heard op _ ho hs hb ih =>
      refine hear_room ih ?_
      have hc := (C108_count A rotate w op).1 heard
      rw [hs] at hc
      rw [ho.2, hb]
      have hle : ∀ mac, others w mac ≤ w.devices.length := fun mac => by
        unfold others AMap.values
        exact List.countP_le_length.trans (by simp)
      unfold streamCapacity
      cases op with
      | setPosition mac p =>
        dsimp only at hc
        by_cases hk : others w mac < w.devices.length
        · simp
          omega
        · -- without a device of this address nothing is sent
          have hnone : place mac p w.devices = none := by
            rw [place_none]
            intro x hx hm
            refine hk ?_
            unfold others AMap.values
            rw [List.countP_map]
            refine List.countP_lt_length_iff.mpr ⟨x, hx, ?_⟩
            simpa using hm
          unfold serve setPosition at hs
          dsimp only at hs
          rw [hnone] at hs
          have : es' = [] := by
            dsimp only at hs
            split at hs <;> · cases hs; rfl
          rw [this]
          simp
      | _ => simp at hc ⊢; omega
    | read _ ih => exact (read_lagged _).trans ih
  obtain ⟨-, h2, h3, -⟩ := listening_ok h
  refine ⟨h2 hl, ?_⟩
  cases he : t.ended with
  | false => rfl
  | true => rw [h3 he] at hl; cases hl

/-- C108: with at least 512 devices of other addresses, moving a device takes away the stream of every listener that does not
read while the handler runs, even one that had read all. -/
theorem C108_large (A : Arith) (rotate : Rotate) (w : Web) (hp : w.poisoned = false) (hn : (AMap.keys w.devices).Nodup)
    (mac : MacAddress) (p : Position) (hm : ∃ k i, w.devices.get? k = some i ∧ i.mac = mac) (ho : 512 ≤ others w mac)
    (t : Listener) (hc : t.unread.length ≤ streamCapacity) :
    let es := (w.setPosition (A.compute rotate) always mac p).2.1
    (hear t (es.map .send)).lagged = true ∧ (hear t (es.map .send)).read.ended = true ∧
    ∀ bs, (hear (hear t (es.map .send)) bs).got = t.got := by
  intro es
  have hl : es.length = 1 + 2 * others w mac := (C108_count A rotate w (.setPosition mac p)).2 mac p rfl hp hn hm
  have hg : (hear t (es.map .send)).lagged = true := hear_burst (by unfold streamCapacity; omega) hc
  refine ⟨hg, ?_, fun bs => ?_⟩
  · unfold Listener.read
    split
    next h => exact h
    next => simp
  · rw [got_lagged bs hg, got_sends]

/-- The program with anchors of the first `n` of these addresses, all at one position, and nothing under way. -/
def anchored (addr : Nat → MacAddress) (p : Position) (n : Nat) : Site :=
  { Site.new with
    sys := { System.new with
      pica := { Pica.new with counter := n, anchors := (List.range n).map fun i => (addr i, ⟨i, addr i⟩) }
      spawned := n }
    web := ⟨(List.range n).map fun i => (i, ⟨.anchor, addr i, p⟩), false⟩ }

theorem insert_new {K V : Type} [DecidableEq K] (m : AMap K V) (k : K) (v : V) (h : k ∉ AMap.keys m) :
    AMap.insert m k v = m ++ [(k, v)] := by
  induction m with
  | nil => rfl
  | cons e m ih =>
    simp only [AMap.keys, List.map_cons, List.mem_cons, not_or] at h
    unfold AMap.insert
    rw [if_neg (fun hk => h.1 hk.symm), ih h.2]
    rfl

theorem anchored_run (measure : Measure) (addr : Nat → MacAddress) (p : Position) (n : Nat)
    (hi : ∀ i j, i < n → j < n → addr i = addr j → i = j) : ∃ ls, Site.Run measure .new ls (anchored addr p n) := by
  induction n with
  | zero => exact ⟨[], .nil⟩
  | succ n ih =>
    obtain ⟨ls, hr⟩ := ih fun i j h1 h2 => hi i j (by omega) (by omega)
    have hk : addr n ∉ AMap.keys ((List.range n).map fun i => (addr i, (⟨i, addr i⟩ : Anchor))) := by
      unfold AMap.keys
      simp only [List.map_map, List.mem_map, List.mem_range, Function.comp_apply, not_exists, not_and]
      intro i hin he
      have := hi i n (by omega) (by omega) he
      omega
    have hw : n ∉ AMap.keys ((List.range n).map fun i => (i, (⟨.anchor, addr i, p⟩ : Info))) := by
      unfold AMap.keys
      simp
    have ea : AMap.insert ((List.range n).map fun i => (addr i, (⟨i, addr i⟩ : Anchor))) (addr n) ⟨n, addr n⟩ =
        (List.range (n + 1)).map fun i => (addr i, (⟨i, addr i⟩ : Anchor)) := by
      rw [insert_new _ _ _ hk, List.range_succ, List.map_append]
      rfl
    have ew : AMap.insert ((List.range n).map fun i => (i, (⟨.anchor, addr i, p⟩ : Info))) n ⟨.anchor, addr n, p⟩ =
        (List.range (n + 1)).map fun i => (i, (⟨.anchor, addr i, p⟩ : Info)) := by
      rw [insert_new _ _ _ hw, List.range_succ, List.map_append]
      rfl
    have hnone : AMap.get? ((List.range n).map fun i => (addr i, (⟨i, addr i⟩ : Anchor))) (addr n) = none := by
      cases hg : AMap.get? ((List.range n).map fun i => (addr i, (⟨i, addr i⟩ : Anchor))) (addr n) with
      | none => rfl
      | some v => exact absurd (List.mem_map_of_mem (f := Prod.fst) (AMap.mem_of_get? hg)) hk
    have h1 := Site.Run.step hr rfl rfl
      (.ask (a := ⟨addr n, some p⟩) (.request trivial (show 0 < queueSize by decide)))
    have h2 := Site.Run.step h1 rfl rfl (.process (.process (p := (anchored addr p (n + 1)).sys.pica) rfl
      (out := [.anchorReply (.ok n)]) (by
        show Pica.createAnchor (anchored addr p n).sys.pica (addr n) = _
        unfold Pica.createAnchor Pica.macKnown
        show (if (AMap.get? ((List.range n).map fun i => (addr i, (⟨i, addr i⟩ : Anchor))) (addr n)).isSome || false then _
          else if (AMap.get? ((List.range n).map fun i => (addr i, (⟨i, addr i⟩ : Anchor))) (addr n)).isSome then _
          else Except.ok (({ Pica.new with
              counter := n + 1
              anchors := AMap.insert ((List.range n).map fun i => (addr i, (⟨i, addr i⟩ : Anchor))) (addr n) ⟨n, addr n⟩ } :
                Pica), _)) = _
        rw [hnone, ea]
        rfl)))
    have h3 := Site.Run.step h2 rfl rfl (.answer (before := []) (after := []) (a := ⟨addr n, some p⟩) (r := .ok n)
      (heard := always) rfl)
    refine ⟨_, Eq.mp (congrArg (Site.Run measure .new _) ?_) h3⟩
    have : (anchored addr p (n + 1)).web = ⟨AMap.insert ((List.range n).map fun i => (i, (⟨.anchor, addr i, p⟩ : Info))) n
        ⟨.anchor, addr n, p⟩, false⟩ := by rw [ew]; rfl
    show _ = ({ anchored addr p (n + 1) with web := (anchored addr p (n + 1)).web } : Site)
    rw [this]
    rfl

/-- An address for each number below 65536. -/
def address (i : Nat) : MacAddress := .short ⟨[UInt8.ofNat (i / 256), UInt8.ofNat i], rfl⟩

theorem address_inj (i j : Nat) (hi : i < 65536) (hj : j < 65536) (h : address i = address j) : i = j := by
  simp only [address, MacAddress.short.injEq, Subtype.mk.injEq, List.cons.injEq, and_true] at h
  have h1 := congrArg UInt8.toNat h.1
  have h2 := congrArg UInt8.toNat h.2
  simp at h1 h2
  omega

/-- In such a registry all devices but one have another address than the first. -/
theorem anchored_others (p : Position) (n : Nat) (hn : n < 65536) :
    (AMap.keys (anchored address p (n + 1)).web.devices).Nodup ∧
    (∃ k i, (anchored address p (n + 1)).web.devices.get? k = some i ∧ i.mac = address 0) ∧
    others (anchored address p (n + 1)).web (address 0) = n := by
  have hd : (anchored address p (n + 1)).web.devices =
      (List.range (n + 1)).map fun i => (i, (⟨.anchor, address i, p⟩ : Info)) := rfl
  refine ⟨?_, ⟨0, ⟨.anchor, address 0, p⟩, ?_, rfl⟩, ?_⟩
  · rw [hd]
    unfold AMap.keys
    simp [Function.comp_def, List.nodup_range]
  · rw [hd, List.range_succ_eq_map]
    rfl
  · unfold others AMap.values
    rw [hd, List.map_map, List.countP_map, List.range_succ_eq_map, List.countP_cons_of_neg (by simp), List.countP_map]
    rw [List.countP_eq_length.mpr, List.length_range]
    intro i hi
    simp only [List.mem_range] at hi
    simp only [Function.comp_apply, decide_eq_true_eq]
    intro h
    have := address_inj _ _ (by omega) (by omega) h
    omega

/-- C108 does not hold with more devices: in the program with more than 512 anchors a listener that has read all when a
handler begins can lose its stream, and with it all that the handler sent. -/
theorem C108_false (A : Arith) (rotate : Rotate) (n : Nat) (h1 : 512 < n) (h2 : n ≤ 65536) :
    ∃ ls s w t es, Site.Run (A.compute rotate) .new ls s ∧ s.web.devices.length = n ∧
      Listening (A.compute rotate) (fun _ t _ => t.unread = []) s.web w t es ∧ t.ended = true ∧ t.got = [] ∧
      es.length = 2 * n - 1 := by
  obtain ⟨n, rfl⟩ : ∃ m, n = m + 1 := ⟨n - 1, by omega⟩
  obtain ⟨ls, hr⟩ := anchored_run (A.compute rotate) address .default (n + 1)
    fun i j hi hj => address_inj i j (by omega) (by omega)
  obtain ⟨hn, hm, ho⟩ := anchored_others .default n (by omega)
  have hp : (anchored address .default (n + 1)).web.poisoned = false := rfl
  have hd : (anchored address .default (n + 1)).web.devices.length = n + 1 := by
    show (List.map _ (List.range (n + 1))).length = n + 1
    simp
  refine ⟨ls, anchored address .default (n + 1), ?_⟩
  generalize (anchored address .default (n + 1)) = s at *
  have hc := (C108_count A rotate s.web (.setPosition (address 0) .default)).2 _ _ rfl hp hn hm
  obtain ⟨-, h3, h4⟩ := C108_large A rotate s.web hp hn (address 0) .default hm (by omega) Listener.new (by decide)
  have hl := Listening.serve (measure := A.compute rotate) (ok := fun _ t _ => t.unread = [])
    (w₀ := s.web) always (.setPosition (address 0) .default) .start rfl rfl (sent_sends _)
  refine ⟨_, _, _, hr, hd, .read hl, h3, h4 [.read], ?_⟩
  show (serve (A.compute rotate) always s.web (.setPosition (address 0) .default)).2.1.length = _
  rw [hc, ho]
  omega

example : 512 < 513 ∧ 513 ≤ 65536 := by decide

/-- The conditions of `C108_large`: 513 anchors of different addresses. -/
example : ∃ w : Web, w.poisoned = false ∧ (AMap.keys w.devices).Nodup ∧
    (∃ k i, w.devices.get? k = some i ∧ i.mac = address 0) ∧ 512 ≤ others w (address 0) := by
  obtain ⟨hn, hm, ho⟩ := anchored_others .default 512 (by omega)
  exact ⟨_, rfl, hn, hm, ho.ge⟩

/-- A listener, an anchor and another one, and the second one moves while the listener reads. -/
example (A : Arith) (rotate : Rotate) : ∃ w t es,
    Listening (A.compute rotate) (fun w t _ => w.devices.length ≤ 512 ∧ t.unread = []) Web.new w t es ∧
      es.length = 5 ∧ t.got.length = 4 := by
  have a1 := Listening.serve (measure := A.compute rotate) (ok := fun w t _ => w.devices.length ≤ 512 ∧ t.unread = [])
    (w₀ := Web.new) always (.created (address 0) .default 0) .start ⟨by decide, rfl⟩ rfl
    (bs := [.send (.added .anchor (address 0) .default), .read]) rfl
  have a2 := Listening.serve always (.created (address 1) .default 1) a1 ⟨by decide, rfl⟩ rfl
    (bs := [.send (.added .anchor (address 1) .default), .read]) rfl
  obtain ⟨l, _, hl, -, -⟩ := sane A rotate .default .default
  have a3 := Listening.serve always (.setPosition (address 1) .default) a2 ⟨by decide, rfl⟩
    (w' := ⟨[(0, ⟨.anchor, address 0, .default⟩), (1, ⟨.anchor, address 1, .default⟩)], false⟩)
    (es' := [.updated .anchor (address 1) .default, .neighbor (.anchor, address 1) (.anchor, address 0) l,
      .neighbor (.anchor, address 0) (.anchor, address 1) l]) (reply := .status 200)
    (by simp [serve, Web.new, AMap.insert, setPosition, place, neighbors, AMap.values, always, hl, address])
    (bs := [.send (.updated .anchor (address 1) .default), .read,
      .send (.neighbor (.anchor, address 1) (.anchor, address 0) l), .read,
      .send (.neighbor (.anchor, address 0) (.anchor, address 1) l)]) rfl
  exact ⟨_, _, _, a3, rfl, rfl⟩

end Pica.Props

import Verif.Proofs.Framing
/-! C08-C12: packets on the transport. The vocabulary is that of `Verif/Spec/Framing.lean`. -/

namespace Pica.Props
open Spec

/-! ### C08 -/

/-- C08: well formed packets are read back exactly, whatever follows them. -/
theorem C08_read_packets (ms : List Msg) (h : ∀ m ∈ ms, m.WellFormed) (rest : Bytes) :
    readStream ((ms.map Msg.bytes).flatten ++ rest) = ms.map Msg.bytes ++ readStream rest :=
  readStream_msgs ms h rest

/-- C08: a stream cut inside a packet ends there. -/
theorem C08_cut (ms : List Msg) (h : ∀ m ∈ ms, m.WellFormed) (m : Msg) (hm : m.WellFormed) (k : Nat)
    (hk : k < m.bytes.length) :
    readStream ((ms.map Msg.bytes).flatten ++ m.bytes.take k) = ms.map Msg.bytes := by
  rw [readStream_msgs ms h]
  have : readPacket (m.bytes.take k) = none := by
    cases hr : readPacket (m.bytes.take k) with
    | none => rfl
    | some pr =>
      obtain ⟨p, r⟩ := pr
      obtain ⟨n, hn, rfl, ht⟩ := readPacket_some hr
      have h1 := readPacket_bytes n hn (r ++ m.bytes.drop k)
      rw [← List.append_assoc, ← ht, List.take_append_drop] at h1
      have h2 := readPacket_bytes m hm []
      rw [List.append_nil, h1] at h2
      simp only [Option.some.injEq, Prod.mk.injEq, List.append_eq_nil_iff] at h2
      have := h2.2.2
      rw [List.drop_eq_nil_iff] at this
      omega
  rw [readStream_none this, List.append_nil]

/-- C08: an unknown message type ends the stream. -/
theorem C08_unknown (ms : List Msg) (h : ∀ m ∈ ms, m.WellFormed) (b : UInt8) (hb : 4 ≤ b.toNat / 32)
    (rest : Bytes) :
    readStream ((ms.map Msg.bytes).flatten ++ b :: rest) = ms.map Msg.bytes := by
  rw [readStream_msgs ms h]
  have : readPacket (b :: rest) = none := by
    cases hr : readPacket (b :: rest) with
    | none => rfl
    | some pr =>
      obtain ⟨p, r⟩ := pr
      obtain ⟨n, hn, rfl, ht⟩ := readPacket_some hr
      have : b = n.h₀ := by simp only [Msg.bytes, List.cons_append, List.cons.injEq] at ht; exact ht.1
      have h1 : n.h₀.toNat / 32 < 4 := hn.1
      rw [← this] at h1
      omega
  rw [readStream_none this, List.append_nil]

/-- C08: on any bytes, what is read are well formed packets that make up the stream, up to a rest that
begins with no packet. -/
theorem C08_any_bytes (bs : Bytes) :
    ∃ ms : List Msg, ∃ rest, readStream bs = ms.map Msg.bytes ∧ (∀ m ∈ ms, m.WellFormed) ∧
      bs = (ms.map Msg.bytes).flatten ++ rest ∧ ∀ m : Msg, m.WellFormed → ¬ m.bytes <+: rest :=
  readStream_sound bs

example : (⟨0x20, 0, 0, 1, [0]⟩ : Msg).WellFormed := by decide
example : (⟨0x01, 0, 0x01, 0x01, List.replicate 257 7⟩ : Msg).WellFormed := by
  constructor <;> decide +kernel
example : 4 ≤ (0x9f : UInt8).toNat / 32 := by decide

/-! ### C09 -/

/-- C09: what is written for a message is a segmentation of it. -/
theorem C09_segments (m : Msg) : ∃ fs : List Msg, segment m.bytes = .ok (fs.map Msg.bytes) ∧ Segments m fs :=
  segment_spec m

/-- C09: a segmentation of a message with a known type consists of packets that are well formed. -/
theorem C09_wellFormed (m : Msg) (hm : m.mt < 4) (fs : List Msg) (h : Segments m fs) : ∀ f ∈ fs, f.WellFormed :=
  fun f hf => ⟨by rw [(h.header f hf).1]; exact hm, (h.size f hf).2.2⟩

/-- C09: nothing at all is written for a message without payload. -/
theorem C09_empty (m : Msg) (fs : List Bytes) (h : segment m.bytes = .ok fs) : fs = [] ↔ m.payload = [] := by
  obtain ⟨gs, h1, h2⟩ := segment_spec m
  rw [h] at h1
  cases h1
  constructor
  · intro hn
    rw [List.map_eq_nil_iff] at hn
    rw [← h2.payload, hn]; rfl
  · intro hp
    cases gs with
    | nil => rfl
    | cons g gs =>
      have := h2.payload
      rw [hp] at this
      simp only [List.map_cons, List.flatten_cons, List.append_eq_nil_iff] at this
      have h3 := (h2.size g List.mem_cons_self).1
      rw [this.1] at h3
      simp at h3

/-- C09: the number of packets. -/
theorem C09_count (m : Msg) (fs : List Msg) (h : Segments m fs) :
    fs.length = (m.payload.length + m.limit - 1) / m.limit := by
  have hl := limit_pos m
  have key : ∀ (fs : List Msg), (∀ f ∈ fs, 1 ≤ f.payload.length ∧ f.payload.length ≤ m.limit) →
      (∀ i (h : i + 1 < fs.length), fs[i].payload.length = m.limit) →
      fs ≠ [] → (fs.length - 1) * m.limit + 1 ≤ ((fs.map Msg.payload).flatten).length ∧
        ((fs.map Msg.payload).flatten).length ≤ fs.length * m.limit := by
    intro fs
    induction fs with
    | nil => intro _ _ h; exact absurd rfl h
    | cons f fs ih =>
      intro h1 h2 _
      have hf := h1 f List.mem_cons_self
      simp only [List.map_cons, List.flatten_cons, List.length_append, List.length_cons, Nat.add_sub_cancel]
      by_cases hfs : fs = []
      · subst hfs; simp; exact hf
      · have hpos : 0 < fs.length := List.length_pos_iff.mpr hfs
        have hf' := h2 0 (by simpa using hpos)
        simp only [List.getElem_cons_zero] at hf'
        obtain ⟨i1, i2⟩ := ih (fun x hx => h1 x (List.mem_cons_of_mem _ hx))
          (fun i hi => by have := h2 (i + 1) (by simpa using hi); simpa using this) hfs
        obtain ⟨k, hk⟩ : ∃ k, fs.length = k + 1 := ⟨fs.length - 1, by omega⟩
        rw [hk] at i1 i2 ⊢
        simp only [Nat.add_sub_cancel, Nat.add_mul, Nat.one_mul] at i1 i2 ⊢
        omega
  by_cases hfs : fs = []
  · have := h.payload
    rw [hfs] at this
    rw [← this, hfs]
    simp only [List.map_nil, List.flatten_nil, List.length_nil, Nat.zero_add]
    exact (Nat.div_eq_of_lt (by omega)).symm
  · obtain ⟨h1, h2⟩ := key fs (fun f hf => ⟨(h.size f hf).1, (h.size f hf).2.1⟩) h.full hfs
    rw [h.payload] at h1 h2
    have hpos : 0 < fs.length := List.length_pos_iff.mpr hfs
    symm
    apply Nat.div_eq_of_lt_le
    · obtain ⟨k, hk⟩ : ∃ k, fs.length = k + 1 := ⟨fs.length - 1, by omega⟩
      rw [hk] at h1 h2 ⊢
      simp only [Nat.add_sub_cancel, Nat.add_mul, Nat.one_mul] at h1 h2 ⊢
      omega
    · rw [Nat.add_mul]; omega

/-- A response of 600 bytes leaves as three packets. -/
example : (segment (⟨0x41, 3, 0, 0, List.replicate 600 9⟩ : Msg).bytes).toOption.map (·.map List.length) =
    some [259, 259, 94] := by decide +kernel

/-! ### C10 -/

/-- C10: control messages with a payload survive segmentation, framing and reassembly. -/
theorem C10_roundtrip (ms : List Msg) (h : ∀ m ∈ ms, 1 ≤ m.mt ∧ m.mt ≤ 3 ∧ m.payload ≠ [])
    (fss : List (List Bytes)) (hs : List.Forall₂ (fun m fs => segment m.bytes = .ok fs) ms fss) :
    ∃ ms' : List Msg, List.Forall₂ Msg.Same ms' ms ∧
      reassemble none (readStream (fss.flatten.flatten)) = (ms'.map Msg.bytes, .closed) := by
  have key : ∃ ms' : List Msg, List.Forall₂ Msg.Same ms' ms ∧ reassemble none fss.flatten = (ms'.map Msg.bytes, .closed) ∧
      ∃ gs : List Msg, fss.flatten = gs.map Msg.bytes ∧ ∀ g ∈ gs, g.WellFormed := by
    induction hs with
    | nil => exact ⟨[], .nil, rfl, [], rfl, by simp⟩
    | @cons m fs ms fss hm _ ih =>
      obtain ⟨ms', h1, h2, gs, h3, h4⟩ := ih fun x hx => h x (List.mem_cons_of_mem _ hx)
      have hmm := h m List.mem_cons_self
      obtain ⟨fs', h5, h6⟩ := segment_spec m
      rw [hm] at h5
      cases h5
      obtain ⟨m', h7, h8⟩ := reassemble_segments m (by omega) (by omega) hmm.2.2 fs' h6 fss.flatten
      refine ⟨m' :: ms', .cons h7 h1, ?_, fs' ++ gs, ?_, ?_⟩
      · rw [List.flatten_cons, h8, h2]; rfl
      · rw [List.flatten_cons, h3, List.map_append]
      · intro g hg
        rcases List.mem_append.mp hg with hg | hg
        · exact C09_wellFormed m (by omega) fs' h6 g hg
        · exact h4 g hg
  obtain ⟨ms', h1, h2, gs, h3, h4⟩ := key
  refine ⟨ms', h1, ?_⟩
  have := readStream_msgs gs h4 []
  rw [readStream_none (bs := []) rfl, List.append_nil, List.append_nil] at this
  rw [h3, this, ← h3, h2]

/-- Two messages, of 256 and 2 bytes. -/
example : ∃ fss, List.Forall₂ (fun (m : Msg) fs => segment m.bytes = .ok fs)
    [⟨0x21, 3, 0, 0, List.replicate 256 9⟩, ⟨0x22, 1, 0, 0, [1, 2]⟩] fss ∧ fss.flatten.length = 3 := by
  obtain ⟨f, hf, sf⟩ := segment_spec ⟨0x21, 3, 0, 0, List.replicate 256 9⟩
  obtain ⟨g, hg, sg⟩ := segment_spec ⟨0x22, 1, 0, 0, [1, 2]⟩
  refine ⟨[_, _], .cons hf (.cons hg .nil), ?_⟩
  have h1 := C09_count _ f sf
  have h2 := C09_count _ g sg
  simp only [List.flatten_cons, List.flatten_nil, List.append_nil, List.length_append, List.length_map, h1, h2]
  decide +kernel

/-! ### C11 -/

/-- C11: the host reads back the messages the emulator wrote: same type, group, opcode and payload, in
order, with a cleared boundary flag. -/
theorem C11_host (ms : List Msg) (h : ∀ m ∈ ms, m.mt < 4 ∧ m.payload ≠ [])
    (fss : List (List Bytes)) (hs : List.Forall₂ (fun m fs => segment m.bytes = .ok fs) ms fss)
    (fuel : Nat) (hfuel : ms.length ≤ fuel) :
    ∃ ms' : List Msg, List.Forall₂ Msg.Same ms' ms ∧ (∀ m ∈ ms', m.more = 0) ∧
      Host.readPackets fuel (fss.flatten.flatten) = ms'.map Msg.bytes := by
  induction hs generalizing fuel with
  | nil =>
    refine ⟨[], .nil, by simp, ?_⟩
    cases fuel with
    | zero => rfl
    | succ n => rfl
  | @cons m fs ms fss hm _ ih =>
    have hmm := h m List.mem_cons_self
    cases fuel with
    | zero => simp at hfuel
    | succ n =>
      obtain ⟨ms', h1, h2, h3⟩ := ih (fun x hx => h x (List.mem_cons_of_mem _ hx)) n (by simpa using hfuel)
      obtain ⟨fs', h5, h6⟩ := segment_spec m
      rw [hm] at h5
      cases h5
      obtain ⟨m', h7, h8, h9⟩ := host_readPacket m hmm.1 hmm.2 fs' h6 fss.flatten.flatten
      refine ⟨m' :: ms', .cons h7 h1, ?_, ?_⟩
      · intro x hx
        rcases List.mem_cons.mp hx with rfl | hx
        exacts [h8, h2 x hx]
      · rw [List.flatten_cons, List.flatten_append, Host.readPackets, h9]
        dsimp only
        rw [h3]; rfl

/-- A data message of 2000 bytes and a notification. -/
example : ∀ m ∈ [(⟨0x02, 0, 0, 0, List.replicate 2000 1⟩ : Msg), ⟨0x61, 1, 0, 0, [1]⟩], m.mt < 4 ∧ m.payload ≠ [] := by
  decide +kernel

/-! ### C12 -/

/-- C12 as stated: a data packet reaches the device unmodified, whatever was received before. -/
def C12_statement : Prop :=
  ∀ (before : List Msg) (d : Msg), (∀ m ∈ before, m.WellFormed) → d.WellFormed → d.mt = 0 →
    d.bytes ∈ (reassemble none (before.map Msg.bytes ++ [d.bytes])).1

/-- C12 does not hold: a data packet between the fragments of a control message is merged into it. -/
theorem C12_false : ¬ C12_statement := by
  intro h
  exact absurd (h [⟨0x31, 3, 0, 1, [9]⟩] ⟨0x02, 0, 1, 0, [7]⟩ (by decide) (by decide) (by decide)) (by decide +kernel)

/-- C12, the part that holds: outside of a fragmented control message a data packet is delivered
unmodified and disturbs nothing. Missing: data packets directly after a fragment that announces more
fragments. -/
theorem C12_partial (before after : List Msg) (d : Msg) (hb : ∀ m ∈ before, m.WellFormed)
    (hlast : ∀ m, before.getLast? = some m → m.more = 0 ∨ m.mt = 0) (hd : d.mt = 0) :
    reassemble none (before.map Msg.bytes ++ d.bytes :: after.map Msg.bytes) =
      ((reassemble none (before.map Msg.bytes)).1 ++ d.bytes :: (reassemble none (after.map Msg.bytes)).1,
        (reassemble none (after.map Msg.bytes)).2) := by
  have key : ∀ (before : List Msg) (acc : Option Bytes) (ps : List Bytes), (∀ m ∈ before, m.WellFormed) →
      (before = [] → acc = none) → (∀ m, before.getLast? = some m → m.more = 0 ∨ m.mt = 0) →
      reassemble acc (before.map Msg.bytes ++ ps) =
        ((reassemble acc (before.map Msg.bytes)).1 ++ (reassemble none ps).1, (reassemble none ps).2) := by
    intro before
    induction before with
    | nil => intro acc ps _ h _; rw [h rfl]; rfl
    | cons m ms ih =>
      intro acc ps hw _ hl
      have hm := (hw m List.mem_cons_self).1
      have hw' : ∀ x ∈ ms, x.WellFormed := fun x hx => hw x (List.mem_cons_of_mem _ hx)
      have hl' : ∀ x, ms.getLast? = some x → x.more = 0 ∨ x.mt = 0 := by
        intro x hx
        apply hl
        rw [List.getLast?_cons, hx]; rfl
      have hmore : ms = [] → m.more = 0 ∨ m.mt = 0 := by rintro rfl; exact hl m rfl
      simp only [List.map_cons, List.cons_append]
      cases acc with
      | none =>
        rw [reassemble_none m hm, reassemble_none m hm]
        split
        · rw [ih none ps hw' (fun _ => rfl) hl']; rfl
        · rename_i hc
          rw [ih _ ps hw' (fun e => absurd (hmore e) hc) hl']
      | some c =>
        rw [reassemble_some m hm, reassemble_some m hm]
        split
        · rw [ih none ps hw' (fun _ => rfl) hl']; rfl
        · rename_i hc
          rw [ih _ ps hw' (fun e => absurd (hmore e) hc) hl']
  rw [key before none _ hb (fun _ => rfl) hlast, reassemble_none d (by omega), if_pos (Or.inr hd)]

/-- A command in two fragments, then data. -/
example : ∀ m, [(⟨0x31, 3, 0, 1, [9]⟩ : Msg), ⟨0x21, 3, 0, 1, [9]⟩].getLast? = some m → m.more = 0 ∨ m.mt = 0 := by
  decide

end Pica.Props

import Verif.Model.Host
import Verif.Proofs.MacAddress
import Verif.Spec.Framing
/-! Lemmas about framing and segmentation. -/

namespace Pica
open Spec

/-- The message type with a given number. -/
def mtOf (n : Nat) : MessageType :=
  match n with
  | 0 => .data
  | 2 => .response
  | 3 => .notification
  | _ => .command

theorem decodeCommonHeader_eq (b : UInt8) :
    decodeCommonHeader b = if b.toNat / 32 < 4 then
      some (if b.toNat / 16 % 2 = 0 then .complete else .notComplete, mtOf (b.toNat / 32)) else none :=
  forall_u8 (P := fun b => decodeCommonHeader b = if b.toNat / 32 < 4 then
      some (if b.toNat / 16 % 2 = 0 then .complete else .notComplete, mtOf (b.toNat / 32)) else none)
    (by decide +kernel) b

theorem parseMessageType_eq (b : UInt8) : parseMessageType b = mtOf (b.toNat / 32) :=
  forall_u8 (P := fun b => parseMessageType b = mtOf (b.toNat / 32)) (by decide +kernel) b

theorem mtOf_data {n : Nat} : mtOf n = .data ↔ n = 0 := by
  unfold mtOf; split <;> simp_all

theorem payloadLength_eq (m : Msg) : payloadLength (mtOf m.mt) m.h₂ m.h₃ = m.lengthField := by
  unfold payloadLength Msg.lengthField
  by_cases h : m.mt = 0
  · rw [mtOf_data.mpr h, if_pos h]; simp [ofLe]
  · have := mt mtOf_data.mp h
    rw [if_neg h]
    cases hm : mtOf m.mt <;> simp_all

/-! ### Reading -/

theorem readPacket_bytes (m : Msg) (h : m.WellFormed) (rest : Bytes) :
    readPacket (m.bytes ++ rest) = some (m.bytes, rest) := by
  obtain ⟨h1, h2⟩ := h
  have h1' : m.h₀.toNat / 32 < 4 := h1
  simp only [Msg.bytes, List.cons_append, readPacket, decodeCommonHeader_eq, if_pos h1']
  have := payloadLength_eq m
  unfold Msg.mt at this
  rw [this, ← h2]
  simp

theorem readPacket_some {bs p rest : Bytes} (h : readPacket bs = some (p, rest)) :
    ∃ m : Msg, m.WellFormed ∧ p = m.bytes ∧ bs = p ++ rest := by
  unfold readPacket at h
  split at h
  · rename_i h₀ h₁ h₂ h₃ r
    rw [decodeCommonHeader_eq] at h
    split at h
    · cases h
    · rename_i heq
      split at heq
      · rename_i hlt
        simp only [Option.some.injEq, Prod.mk.injEq] at heq
        rw [← heq.2] at h
        simp only [Option.ite_none_right_eq_some, Option.some.injEq, Prod.mk.injEq] at h
        obtain ⟨hn, rfl, rfl⟩ := h
        refine ⟨⟨h₀, h₁, h₂, h₃, r.take (payloadLength (mtOf (h₀.toNat / 32)) h₂ h₃)⟩, ⟨hlt, ?_⟩, rfl, by simp⟩
        have := payloadLength_eq ⟨h₀, h₁, h₂, h₃, r.take (payloadLength (mtOf (h₀.toNat / 32)) h₂ h₃)⟩
        simp only [Msg.mt] at this
        exact (List.length_take.trans (Nat.min_eq_left hn)).trans this
      · cases heq
  · cases h

theorem readPacket_none {bs : Bytes} (h : readPacket bs = none) (m : Msg) (hm : m.WellFormed) :
    ¬ m.bytes <+: bs := by
  rintro ⟨t, rfl⟩
  rw [readPacket_bytes m hm] at h
  cases h

theorem readStream_bytes (m : Msg) (h : m.WellFormed) (rest : Bytes) :
    readStream (m.bytes ++ rest) = m.bytes :: readStream rest := by
  rw [readStream]
  split
  · rename_i e; rw [readPacket_bytes m h] at e; cases e
  · rename_i p r e; rw [readPacket_bytes m h] at e; cases e; rfl

theorem readStream_none {bs : Bytes} (h : readPacket bs = none) : readStream bs = [] := by
  rw [readStream]
  split
  · rfl
  · rename_i e; rw [h] at e; cases e

theorem readStream_msgs (ms : List Msg) (h : ∀ m ∈ ms, m.WellFormed) (rest : Bytes) :
    readStream ((ms.map Msg.bytes).flatten ++ rest) = ms.map Msg.bytes ++ readStream rest := by
  induction ms with
  | nil => rfl
  | cons m ms ih =>
    simp only [List.map_cons, List.flatten_cons, List.append_assoc, List.cons_append]
    rw [readStream_bytes m (h m List.mem_cons_self), ih fun x hx => h x (List.mem_cons_of_mem _ hx)]

theorem readStream_sound (bs : Bytes) :
    ∃ ms : List Msg, ∃ rest, readStream bs = ms.map Msg.bytes ∧ (∀ m ∈ ms, m.WellFormed) ∧
      bs = (ms.map Msg.bytes).flatten ++ rest ∧ ∀ m : Msg, m.WellFormed → ¬ m.bytes <+: rest := by
  induction hn : bs.length using Nat.strongRecOn generalizing bs with
  | _ n ih =>
    cases hr : readPacket bs with
    | none => exact ⟨[], bs, readStream_none hr, by simp, rfl, readPacket_none hr⟩
    | some pr =>
      obtain ⟨p, r⟩ := pr
      obtain ⟨m, hm, rfl, hbs⟩ := readPacket_some hr
      obtain ⟨ms, rest, h1, h2, h3, h4⟩ := ih r.length (hn ▸ readPacket_length hr) r rfl
      refine ⟨m :: ms, rest, ?_, ?_, ?_, h4⟩
      · rw [hbs, readStream_bytes m hm, h1]; rfl
      · intro x hx
        rcases List.mem_cons.mp hx with rfl | hx
        exacts [hm, h2 x hx]
      · rw [hbs]; conv => lhs; rw [h3]
        simp

/-! ### Writing -/

theorem clear_pbf (b : UInt8) : ((b &&& ~~~(0x10 : UInt8)) ||| (PacketBoundaryFlag.complete.code <<< 4)).toNat =
      b.toNat / 32 * 32 + b.toNat % 16 ∧
    ((b &&& ~~~(0x10 : UInt8)) ||| (PacketBoundaryFlag.notComplete.code <<< 4)).toNat =
      b.toNat / 32 * 32 + 16 + b.toNat % 16 :=
  forall_u8 (P := fun b => ((b &&& ~~~(0x10 : UInt8)) ||| (PacketBoundaryFlag.complete.code <<< 4)).toNat =
      b.toNat / 32 * 32 + b.toNat % 16 ∧
    ((b &&& ~~~(0x10 : UInt8)) ||| (PacketBoundaryFlag.notComplete.code <<< 4)).toNat =
      b.toNat / 32 * 32 + 16 + b.toNat % 16) (by decide +kernel) b

/-- One fragment, by its parts. -/
def fragMsg (m : Msg) (last : Bool) (payload : Bytes) : Msg where
  h₀ := (m.h₀ &&& ~~~(0x10 : UInt8)) |||
    ((if last then PacketBoundaryFlag.complete else .notComplete).code <<< 4)
  h₁ := m.h₁
  h₂ := if m.mt = 0 then UInt8.ofNat payload.length else m.h₂
  h₃ := if m.mt = 0 then UInt8.ofNat (payload.length / 256) else UInt8.ofNat payload.length
  payload := payload

theorem fragMsg_header (m : Msg) (last : Bool) (p : Bytes) :
    (fragMsg m last p).mt = m.mt ∧ (fragMsg m last p).low = m.low ∧
    (fragMsg m last p).more = (if last then 0 else 1) ∧
    (fragMsg m last p).h₁ = m.h₁ ∧ (m.mt ≠ 0 → (fragMsg m last p).h₂ = m.h₂) := by
  have h := clear_pbf m.h₀
  refine ⟨?_, ?_, ?_, rfl, ?_⟩
  · unfold Msg.mt; cases last <;> simp only [fragMsg, if_true, Bool.false_eq_true, if_false] <;> omega
  · unfold Msg.low; cases last <;> simp only [fragMsg, if_true, Bool.false_eq_true, if_false] <;> omega
  · unfold Msg.more; cases last <;> simp only [fragMsg, if_true, Bool.false_eq_true, if_false] <;> omega
  · intro h; simp [fragMsg, h]

theorem fragMsg_length (m : Msg) (last : Bool) (p : Bytes) (h : p.length ≤ m.limit) :
    p.length = (fragMsg m last p).lengthField := by
  have hmt := (fragMsg_header m last p).1
  unfold Msg.lengthField
  rw [hmt]
  unfold Msg.limit at h
  split at h
  · rename_i h0
    simp only [fragMsg, h0, if_true, UInt8.toNat_ofNat']
    omega
  · rename_i h0
    simp only [fragMsg, h0, if_false, UInt8.toNat_ofNat']
    omega

theorem maxPayload_eq (m : Msg) : maxPayload (mtOf m.mt) = m.limit := by
  unfold maxPayload Msg.limit
  by_cases h : m.mt = 0
  · rw [mtOf_data.mpr h, if_pos h]; rfl
  · have := mt mtOf_data.mp h
    rw [if_neg h]
    cases hm : mtOf m.mt <;> simp_all [maxCtrlPayload]

theorem fragment_eq (m : Msg) (last : Bool) (p : Bytes) (h : p.length ≤ m.limit) :
    fragmentHeader (mtOf m.mt) (if last then .complete else .notComplete) p.length m.h₀ m.h₁ m.h₂ m.h₃ ++ p =
      (fragMsg m last p).bytes := by
  unfold fragmentHeader Msg.limit at *
  by_cases h0 : m.mt = 0
  · rw [mtOf_data.mpr h0]
    rw [if_pos h0] at h
    have : (UInt16.ofNat p.length).toNat = p.length := by rw [UInt16.toNat_ofNat']; omega
    simp [fragMsg, Msg.bytes, h0, u16le, leBytes, this]
  · have := mt mtOf_data.mp h0
    cases hm : mtOf m.mt <;> simp_all [fragMsg, Msg.bytes]

theorem limit_pos (m : Msg) : 0 < m.limit := by unfold Msg.limit; split <;> decide

theorem fragments_spec (m : Msg) (p : Bytes) :
    ∃ fs : List Msg, fragments (mtOf m.mt) m.h₀ m.h₁ m.h₂ m.h₃ p = fs.map Msg.bytes ∧
      Segments { m with payload := p } fs := by
  induction hn : p.length using Nat.strongRecOn generalizing p with
  | _ n ih =>
    rw [fragments]
    split
    · rename_i hp
      refine ⟨[], rfl, ⟨by simp, by simp, by simp, by simp, by simp [hp]⟩⟩
    · rename_i hp
      have hp0 : 0 < p.length := List.length_pos_iff.mpr hp
      have hl := limit_pos m
      dsimp only
      rw [maxPayload_eq]
      have hk : (p.take (min p.length m.limit)).length = min p.length m.limit := by
        rw [List.length_take]; omega
      obtain ⟨fs, hfs, hseg⟩ := ih (p.drop (min p.length m.limit)).length
        (by rw [List.length_drop]; omega) _ rfl
      rw [hfs]
      have hhd : (if min p.length m.limit = p.length then PacketBoundaryFlag.complete else .notComplete) =
          (if decide (min p.length m.limit = p.length) = true then .complete else .notComplete) := by simp
      rw [hhd]
      have hfe := fragment_eq m (decide (min p.length m.limit = p.length)) (p.take (min p.length m.limit))
        (by rw [hk]; exact Nat.min_le_right _ _)
      rw [hk] at hfe
      rw [hfe]
      have hlen : fs.length = 0 ↔ min p.length m.limit = p.length := by
        constructor
        · intro h0
          have hnil := List.length_eq_zero_iff.mp h0
          have := hseg.payload
          rw [hnil] at this
          simp only [List.map_nil, List.flatten_nil] at this
          have := congrArg List.length this
          simp only [List.length_nil, List.length_drop] at this
          omega
        · intro he
          rw [← List.length_map (f := Msg.bytes), ← hfs, he, List.drop_length, fragments]
          rfl
      have hhead := fragMsg_header m (decide (min p.length m.limit = p.length)) (p.take (min p.length m.limit))
      refine ⟨_ :: fs, rfl, ⟨?_, ?_, ?_, ?_, ?_⟩⟩
      · intro f hf
        rcases List.mem_cons.mp hf with rfl | hf
        · exact ⟨hhead.1, hhead.2.1, hhead.2.2.2.1, hhead.2.2.2.2⟩
        · exact hseg.header f hf
      · intro f hf
        rcases List.mem_cons.mp hf with rfl | hf
        · refine ⟨?_, ?_, fragMsg_length m _ _ (hk.trans_le (Nat.min_le_right _ _))⟩
          · show 1 ≤ (p.take _).length
            rw [hk]; omega
          · show (p.take _).length ≤ m.limit
            rw [hk]; omega
        · exact hseg.size f hf
      · intro i hi
        cases i with
        | zero =>
          simp only [List.getElem_cons_zero, List.length_cons]
          rw [hhead.2.2.1]
          by_cases he : min p.length m.limit = p.length
          · simp [he, hlen.mpr he]
          · have := mt hlen.mp he
            simp only [he, decide_false, Bool.false_eq_true, if_false]
            rw [if_neg (by omega)]
        | succ i =>
          have := hseg.boundary i (by simpa using hi)
          simpa using this
      · intro i hi
        cases i with
        | zero =>
          show (p.take _).length = m.limit
          rw [hk]
          have : ¬ min p.length m.limit = p.length := by
            intro he
            have := hlen.mpr he
            simp only [List.length_cons] at hi
            omega
          omega
        | succ i =>
          have := hseg.full i (by simpa using hi)
          exact this
      · simp only [List.map_cons, List.flatten_cons]
        rw [hseg.payload]
        exact List.take_append_drop _ _

theorem segment_spec (m : Msg) : ∃ fs : List Msg, segment m.bytes = .ok (fs.map Msg.bytes) ∧ Segments m fs := by
  obtain ⟨fs, h1, h2⟩ := fragments_spec m m.payload
  refine ⟨fs, ?_, h2⟩
  rw [← h1]
  simp only [segment, Msg.bytes, parseMessageType_eq]
  rfl

/-! ### Reassembly -/

theorem decodeCommonHeader_msg (m : Msg) (h : m.mt < 4) :
    decodeCommonHeader m.h₀ = some (if m.more = 0 then .complete else .notComplete, mtOf m.mt) := by
  rw [decodeCommonHeader_eq]; exact if_pos h

theorem reassemble_none (m : Msg) (h : m.mt < 4) (ps : List Bytes) :
    reassemble none (m.bytes :: ps) =
      if m.more = 0 ∨ m.mt = 0 then (m.bytes :: (reassemble none ps).1, (reassemble none ps).2)
      else reassemble (some m.bytes) ps := by
  conv => lhs; rw [Msg.bytes, reassemble]
  rw [decodeCommonHeader_msg m h]
  by_cases h0 : m.more = 0 <;> by_cases h1 : m.mt = 0 <;> simp [h0, h1, mtOf_data, Msg.bytes]

theorem reassemble_some (m : Msg) (h : m.mt < 4) (c : Bytes) (ps : List Bytes) :
    reassemble (some c) (m.bytes :: ps) =
      if m.more = 0 ∨ m.mt = 0 then ((c ++ m.payload) :: (reassemble none ps).1, (reassemble none ps).2)
      else reassemble (some (c ++ m.payload)) ps := by
  conv => lhs; rw [Msg.bytes, reassemble.eq_def]
  simp only [decodeCommonHeader_msg m h]
  by_cases h0 : m.more = 0 <;> by_cases h1 : m.mt = 0 <;> simp [h0, h1, mtOf_data, headerSize]

theorem reassemble_rest (c : Bytes) (fs : List Msg) (hne : fs ≠ []) (hmt : ∀ f ∈ fs, f.mt < 4 ∧ f.mt ≠ 0)
    (hb : ∀ i (h : i < fs.length), fs[i].more = if i + 1 = fs.length then 0 else 1) (ps : List Bytes) :
    reassemble (some c) (fs.map Msg.bytes ++ ps) =
      ((c ++ (fs.map Msg.payload).flatten) :: (reassemble none ps).1, (reassemble none ps).2) := by
  induction fs generalizing c with
  | nil => exact absurd rfl hne
  | cons f fs ih =>
    have hf := hmt f List.mem_cons_self
    have h0 := hb 0 (by simp)
    simp only [List.getElem_cons_zero, List.length_cons, Nat.zero_add] at h0
    simp only [List.map_cons, List.cons_append]
    rw [reassemble_some f hf.1]
    by_cases hfs : fs = []
    · subst hfs
      simp at h0
      simp [h0]
    · have hl : 0 < fs.length := List.length_pos_iff.mpr hfs
      rw [if_neg (by omega)] at h0
      rw [if_neg (by omega), ih _ hfs (fun x hx => hmt x (List.mem_cons_of_mem _ hx))
        (fun i hi => by have := hb (i + 1) (by simpa using hi); simpa using this)]
      simp

theorem reassemble_segments (m : Msg) (hmt : m.mt < 4) (hd : m.mt ≠ 0) (hp : m.payload ≠ []) (fs : List Msg)
    (h : Segments m fs) (ps : List Bytes) :
    ∃ m' : Msg, m'.Same m ∧ reassemble none (fs.map Msg.bytes ++ ps) =
      (m'.bytes :: (reassemble none ps).1, (reassemble none ps).2) := by
  cases fs with
  | nil => exact absurd h.payload.symm (by simpa using hp)
  | cons f fs =>
    have hall : ∀ x ∈ f :: fs, x.mt < 4 ∧ x.mt ≠ 0 := fun x hx => by
      rw [(h.header x hx).1]; exact ⟨hmt, hd⟩
    have hf := hall f List.mem_cons_self
    have h0 := h.boundary 0 (by simp)
    have hhd := h.header f List.mem_cons_self
    simp only [List.getElem_cons_zero, List.length_cons, Nat.zero_add] at h0
    refine ⟨{ f with payload := m.payload }, ⟨hhd.1, hhd.2.1, hhd.2.2.1, ?_, rfl⟩, ?_⟩
    · intro _; exact hhd.2.2.2 hd
    · simp only [List.map_cons, List.cons_append]
      rw [reassemble_none f hf.1]
      have hpl := h.payload
      simp only [List.map_cons, List.flatten_cons] at hpl
      by_cases hfs : fs = []
      · subst hfs
        simp at h0 hpl
        simp [h0, Msg.bytes, hpl]
      · have hl : 0 < fs.length := List.length_pos_iff.mpr hfs
        rw [if_neg (by omega)] at h0
        rw [if_neg (by omega), reassemble_rest _ fs hfs (fun x hx => hall x (List.mem_cons_of_mem _ hx))
          (fun i hi => by have := h.boundary (i + 1) (by simpa using hi); simpa using this)]
        simp [Msg.bytes, ← hpl]

/-! ### The host -/

theorem host_loop (fs : List Msg) (hne : fs ≠ []) (hmt : ∀ f ∈ fs, f.mt < 4)
    (hsz : ∀ f ∈ fs, f.payload.length = f.lengthField)
    (hb : ∀ i (h : i < fs.length), fs[i].more = if i + 1 = fs.length then 0 else 1)
    (acc rest : Bytes) (fuel : Nat) (hfuel : fs.length ≤ fuel) :
    Host.readPacketLoop fuel acc ((fs.map Msg.bytes).flatten ++ rest) =
      some ({ fs.getLast hne with payload := acc ++ (fs.map Msg.payload).flatten }.bytes, rest) := by
  induction fs generalizing acc fuel with
  | nil => exact absurd rfl hne
  | cons f fs ih =>
    have hf := hmt f List.mem_cons_self
    have h0 := hb 0 (by simp)
    have hl := hsz f List.mem_cons_self
    simp only [List.getElem_cons_zero, List.length_cons, Nat.zero_add] at h0
    cases fuel with
    | zero => simp at hfuel
    | succ fuel =>
      simp only [List.map_cons, List.flatten_cons, List.append_assoc, Msg.bytes, List.cons_append]
      rw [Host.readPacketLoop]
      rw [decodeCommonHeader_msg f hf]
      simp only [payloadLength_eq f, ← hl]
      rw [if_pos (by simp), List.take_left, List.drop_left]
      by_cases hfs : fs = []
      · subst hfs
        simp at h0
        simp [h0]
      · have hl : 0 < fs.length := List.length_pos_iff.mpr hfs
        rw [if_neg (by omega)] at h0
        simp only [h0]
        have := ih hfs (fun x hx => hmt x (List.mem_cons_of_mem _ hx)) (fun x hx => hsz x (List.mem_cons_of_mem _ hx))
          (fun i hi => by have := hb (i + 1) (by simpa using hi); simpa using this) (acc ++ f.payload) fuel
          (by simpa using hfuel)
        simp only [Msg.bytes] at this
        simp [this, List.getLast_cons hfs]

theorem length_le_flatten (fs : List Msg) : fs.length ≤ ((fs.map Msg.bytes).flatten).length := by
  induction fs with
  | nil => simp
  | cons f fs ih => simp only [List.map_cons, List.flatten_cons, List.length_append, List.length_cons, Msg.bytes]; omega

theorem host_readPacket (m : Msg) (hmt : m.mt < 4) (hp : m.payload ≠ []) (fs : List Msg)
    (h : Segments m fs) (rest : Bytes) :
    ∃ m' : Msg, m'.Same m ∧ m'.more = 0 ∧
      Host.readPacket ((fs.map Msg.bytes).flatten ++ rest) = some (m'.bytes, rest) := by
  have hne : fs ≠ [] := by
    rintro rfl
    exact absurd h.payload.symm (by simpa using hp)
  have hlast := List.getLast_mem hne
  have hhd := h.header _ hlast
  have hmore : (fs.getLast hne).more = 0 := by
    have hpos : 0 < fs.length := List.length_pos_iff.mpr hne
    rw [List.getLast_eq_getElem]
    have := h.boundary (fs.length - 1) (by omega)
    rw [this, if_pos (by omega)]
  refine ⟨{ fs.getLast hne with payload := m.payload }, ⟨hhd.1, hhd.2.1, hhd.2.2.1, ?_, rfl⟩, hmore, ?_⟩
  · intro h0
    exact hhd.2.2.2 (by rw [← hhd.1]; exact h0)
  · unfold Host.readPacket
    rw [host_loop fs hne (fun f hf => by rw [(h.header f hf).1]; exact hmt) (fun f hf => (h.size f hf).2.2)
      h.boundary]
    · rw [h.payload]; rfl
    · have := length_le_flatten fs
      rw [List.length_append]; omega

end Pica

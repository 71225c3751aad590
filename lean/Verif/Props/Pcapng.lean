import Verif.Model.Pcapng
import Verif.Proofs.Bytes
import Verif.Spec.Pcapng
/-! C46: trace files, read by the reader of `Verif/Spec/Pcapng.lean`. -/

namespace Pica.Props
open Spec.Pcapng Pcapng

theorem num_u32le (x : UInt32) (r : Bytes) : num (u32le x ++ r) = some (x.toNat, r) := by
  have h := ofLe_u32le x
  simp only [u32le, leBytes] at h ⊢
  simp only [List.cons_append, List.nil_append, num, h]

theorem block_of (t n : UInt32) (body rest : Bytes) (h4 : n.toNat % 4 = 0) (hb : body.length + 12 = n.toNat) :
    block (u32le t ++ (u32le n ++ (body ++ (u32le n ++ rest)))) = some (t.toNat, body, rest) := by
  unfold block
  rw [num_u32le]
  dsimp only [Option.bind_eq_bind, Option.bind_some]
  rw [num_u32le]
  dsimp only [Option.bind_some]
  have h1 : n.toNat - 12 = body.length := by omega
  have h2 : n.toNat - 8 = body.length + 4 := by omega
  rw [if_neg (by omega), if_neg (by simp only [List.length_append, length_u32le]; omega), h1, h2, List.drop_left,
    num_u32le]
  dsimp only [Option.bind_some]
  rw [if_neg (by simp), List.take_left]
  have : (body ++ (u32le n ++ rest)).drop (body.length + 4) = rest := by
    rw [← List.append_assoc]
    have : body.length + 4 = (body ++ u32le n).length := by simp
    rw [this, List.drop_left]
  rw [this]

theorem blocks_step {bs r b : Bytes} {t fuel : Nat} (h : block bs = some (t, b, r)) :
    blocks (fuel + 1) bs = (blocks fuel r).bind fun more => some ((t, b) :: more) := by
  cases bs with
  | nil => cases h
  | cons x xs =>
    rw [blocks, h]
    · rfl
    · simp

/-- The body of the block written for a packet. -/
def body (packet : Bytes) (micros : Nat) : Bytes :=
  u32le 0 ++ (u32le (UInt32.ofNat (micros / 2 ^ 32)) ++ (u32le (UInt32.ofNat micros) ++
    (u32le (UInt32.ofNat packet.length) ++ (u32le (UInt32.ofNat packet.length) ++
    (packet ++ List.replicate (padding packet) 0)))))

theorem packetBlock_eq (packet : Bytes) (micros : Nat) (rest : Bytes) : packetBlock packet micros ++ rest =
    u32le 6 ++ (u32le (blockTotalLength packet) ++ (body packet micros ++ (u32le (blockTotalLength packet) ++ rest))) := by
  simp only [packetBlock, body, List.append_assoc]

theorem toNat_blockTotalLength (packet : Bytes) (h : packet.length < 2 ^ 32 - 36) :
    (blockTotalLength packet).toNat = packet.length + padding packet + 32 := by
  have hp : padding packet ≤ 4 := Nat.sub_le _ _
  unfold blockTotalLength
  simp only [UInt32.toNat_add, UInt32.toNat_ofNat', UInt32.reduceToNat]
  omega

theorem enhancedPacket_body (packet : Bytes) (micros : Nat) (h : packet.length < 2 ^ 32 - 36) (ht : micros < 2 ^ 64) :
    enhancedPacket (body packet micros) = some ⟨0, micros, packet.length, packet⟩ := by
  have h1 : (UInt32.ofNat packet.length).toNat = packet.length := by rw [UInt32.toNat_ofNat']; omega
  unfold enhancedPacket body
  rw [num_u32le]; dsimp only [Option.bind_eq_bind, Option.bind_some]
  rw [num_u32le]; dsimp only [Option.bind_some]
  rw [num_u32le]; dsimp only [Option.bind_some]
  rw [num_u32le]; dsimp only [Option.bind_some]
  rw [num_u32le]; dsimp only [Option.bind_some]
  rw [h1, if_neg, if_neg]
  · have h2 : (UInt32.ofNat (micros / 2 ^ 32)).toNat * 2 ^ 32 + (UInt32.ofNat micros).toNat = micros := by
      simp only [UInt32.toNat_ofNat']; omega
    rw [h2, List.take_left]; rfl
  · rw [List.drop_append, List.drop_eq_nil_of_le (by omega), List.nil_append, List.drop_replicate]
    have h3 : padding packet - ((packet.length + 3) / 4 * 4 - packet.length) = 0 ∨
        padding packet - ((packet.length + 3) / 4 * 4 - packet.length) = 4 := by
      unfold padding; omega
    rcases h3 with h3 | h3 <;> rw [h3] <;> decide
  · simp only [List.length_append, List.length_replicate]
    unfold padding; omega

theorem blocks_packets (records : List (Bytes × Nat)) (h : ∀ r ∈ records, r.1.length < 2 ^ 32 - 36) (fuel : Nat)
    (hf : records.length ≤ fuel) :
    blocks fuel (records.flatMap (fun r => packetBlock r.1 r.2)) = some (records.map fun r => (6, body r.1 r.2)) := by
  induction records generalizing fuel with
  | nil => cases fuel <;> rfl
  | cons r rs ih =>
    cases fuel with
    | zero => simp at hf
    | succ n =>
      have hr := h r List.mem_cons_self
      rw [List.flatMap_cons]
      have hb := toNat_blockTotalLength r.1 hr
      have hlen : (body r.1 r.2).length + 12 = (blockTotalLength r.1).toNat := by
        rw [hb]; simp only [body, List.length_append, length_u32le, List.length_replicate]; omega
      have h4 : (blockTotalLength r.1).toNat % 4 = 0 := by rw [hb]; unfold padding; omega
      have hblk : block (packetBlock r.1 r.2 ++ rs.flatMap (fun r => packetBlock r.1 r.2)) =
          some (6, body r.1 r.2, rs.flatMap (fun r => packetBlock r.1 r.2)) := by
        rw [packetBlock_eq, block_of _ _ _ _ h4 hlen]; rfl
      rw [blocks_step hblk, ih (fun y hy => h y (List.mem_cons_of_mem _ hy)) n (by simpa using hf)]
      rfl

/-- C46: the reader gets back the packets, in order, with their time stamps. -/
theorem C46_read (records : List (Bytes × Nat)) (h : ∀ r ∈ records, r.1.length < 2 ^ 32 - 36)
    (ht : ∀ r ∈ records, r.2 < 2 ^ 64) (fuel : Nat) (hf : records.length + 2 ≤ fuel) :
    readFile fuel (file records) = some (293, records.map fun r => ⟨0, r.2, r.1.length, r.1⟩) := by
  obtain ⟨n, rfl⟩ : ∃ n, fuel = n + 2 := ⟨fuel - 2, by omega⟩
  have hb : blocks (n + 2) (file records) = some
      ((0x0A0D0D0A, [0x4D, 0x3C, 0x2B, 0x1A, 1, 0, 0, 0, 0xFF, 0xFF, 0xFF, 0xFF, 0xFF, 0xFF, 0xFF, 0xFF]) ::
        (1, [0x25, 1, 0, 0, 0, 0, 0, 0]) :: records.map fun r => (6, body r.1 r.2)) := by
    have e1 : file records = u32le 0x0A0D0D0A ++ (u32le 28 ++
        ([0x4D, 0x3C, 0x2B, 0x1A, 1, 0, 0, 0, 0xFF, 0xFF, 0xFF, 0xFF, 0xFF, 0xFF, 0xFF, 0xFF] ++ (u32le 28 ++
        (u32le 1 ++ (u32le 20 ++ ([0x25, 1, 0, 0, 0, 0, 0, 0] ++ (u32le 20 ++
          records.flatMap (fun r => packetBlock r.1 r.2)))))))) := by
      unfold file fileHeader
      simp only [List.append_assoc]
      rfl
    have s1 := block_of 0x0A0D0D0A 28 [0x4D, 0x3C, 0x2B, 0x1A, 1, 0, 0, 0, 0xFF, 0xFF, 0xFF, 0xFF, 0xFF, 0xFF, 0xFF, 0xFF]
      (u32le 1 ++ (u32le 20 ++ ([0x25, 1, 0, 0, 0, 0, 0, 0] ++ (u32le 20 ++
          records.flatMap (fun r => packetBlock r.1 r.2))))) (by decide) (by decide)
    have s2 := block_of 1 20 [0x25, 1, 0, 0, 0, 0, 0, 0] (records.flatMap (fun r => packetBlock r.1 r.2)) (by decide)
      (by decide)
    rw [← e1] at s1
    rw [blocks_step s1, blocks_step s2, blocks_packets records h n (by omega)]
    rfl
  unfold readFile
  rw [hb]
  have hm : (records.map fun r => ((6 : Nat), body r.1 r.2)).mapM
      (fun b => if b.1 = 6 then enhancedPacket b.2 else none) =
      some (records.map fun r => (⟨0, r.2, r.1.length, r.1⟩ : Record)) := by
    clear hb hf
    induction records with
    | nil => rfl
    | cons r rs ih =>
      rw [List.map_cons, List.mapM_cons, if_pos rfl,
        enhancedPacket_body r.1 r.2 (h r List.mem_cons_self) (ht r List.mem_cons_self),
        ih (fun y hy => h y (List.mem_cons_of_mem _ hy)) (fun y hy => ht y (List.mem_cons_of_mem _ hy))]
      rfl
  simp only [Option.bind_eq_bind, Option.bind_some]
  rw [hm]
  rfl

/-- C46: the length of every packet block is a multiple of 4. -/
theorem C46_aligned (packet : Bytes) (micros : Nat) : (packetBlock packet micros).length % 4 = 0 := by
  simp only [packetBlock, List.length_append, length_u32le, List.length_replicate]
  unfold padding; omega

/-- Packets of 4, 0 and 5 bytes, and a time stamp above 2^32. -/
example : ∀ r ∈ [([0x20, 0, 0, 0], 5), ([], 2 ^ 33 + 7), (([0x20, 1, 0, 1, 3] : Bytes), 9)],
    r.1.length < 2 ^ 32 - 36 ∧ r.2 < 2 ^ 64 := by decide
example : readFile 5 (file [([0x20, 0, 0, 0], 5), ([], 2 ^ 33 + 7), ([0x20, 1, 0, 1, 3], 9)]) =
    some (293, [⟨0, 5, 4, [0x20, 0, 0, 0]⟩, ⟨0, 2 ^ 33 + 7, 0, []⟩, ⟨0, 9, 5, [0x20, 1, 0, 1, 3]⟩]) :=
  C46_read _ (by decide) (by decide) 5 (by decide)

end Pica.Props

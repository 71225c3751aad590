import Verif.Proofs.PyCodec
/-! The DL-TDoA measurements of `uci.py`. -/

namespace Pica.Py
open Spec

theorem stamp_forward {a b : Option Nat} (h : StampFits a b) :
    ∃ x y, optional 5 a = some x ∧ optional 8 b = some y ∧
      ∀ r, timestamp (if b.isSome then 1 else 0) (x ++ y ++ r) = some ((a, b), r) := by
  rcases h with ⟨v, rfl, hv, rfl⟩ | ⟨v, rfl, hv, rfl⟩
  · refine ⟨leBytes 5 v, [], exactly_of (k := 5) hv, rfl, fun r => ?_⟩
    unfold timestamp
    rw [if_pos (by simp), List.append_nil, need_of_le (by simp)]
    have e1 : (leBytes 5 v ++ r).take 5 = leBytes 5 v := rfl
    have e2 : (leBytes 5 v ++ r).drop 5 = r := rfl
    rw [e1, e2, ofLe_of (k := 5) hv]
    rfl
  · refine ⟨[], leBytes 8 v, rfl, exactly_of (k := 8) hv, fun r => ?_⟩
    unfold timestamp
    rw [if_neg (by simp), List.nil_append, need_of_le (by simp)]
    have e1 : (leBytes 8 v ++ r).take 8 = leBytes 8 v := rfl
    have e2 : (leBytes 8 v ++ r).drop 8 = r := rfl
    rw [e1, e2, ofLe_of (k := 8) hv]
    rfl

theorem stamp_back {bit : Nat} {s : Bytes} {t : Option Nat × Option Nat} {r : Bytes} (h : timestamp bit s = some (t, r)) :
    StampFits t.1 t.2 ∧ ∃ x y, optional 5 t.1 = some x ∧ optional 8 t.2 = some y ∧
      x.length + y.length + r.length = s.length := by
  unfold timestamp at h
  split at h
  · simp only [Option.bind_eq_bind, Option.bind_eq_some_iff, need_iff, Option.pure_def, Option.some.injEq,
      Prod.mk.injEq] at h
    obtain ⟨_, h1, rfl, rfl⟩ := h
    have h2 : ofLe (s.take 5) < 256 ^ 5 := ofLe_lt_of (by simp; omega)
    refine ⟨Or.inl ⟨_, rfl, h2, rfl⟩, _, [], exactly_of h2, rfl, ?_⟩
    simp only [length_leBytes, List.length_nil, List.length_drop]
    omega
  · simp only [Option.bind_eq_bind, Option.bind_eq_some_iff, need_iff, Option.pure_def, Option.some.injEq,
      Prod.mk.injEq] at h
    obtain ⟨_, h1, rfl, rfl⟩ := h
    have h2 : ofLe (s.take 8) < 256 ^ 8 := ofLe_lt_of (by simp; omega)
    refine ⟨Or.inr ⟨_, rfl, h2, rfl⟩, [], _, rfl, exactly_of h2, ?_⟩
    simp only [length_leBytes, List.length_nil, List.length_drop]
    omega

theorem out_id (l : List Bytes) : l.flatMap (out fun b => some b) = l.flatten := by
  have : (out fun b : Bytes => some b) = id := rfl
  rw [this, List.flatMap_id]

theorem tail_forward {ws : List Bytes} {rs : List RelativeLocation} (v : Bytes) (hw : ∀ w ∈ ws, w.length = 12)
    (hr : ∀ l ∈ rs, RelativeFits l) (r : Bytes) :
    dlTdoaTail ws.length rs.length v.length (ws.flatten ++ rs.flatMap (out relativeLocationBytes) ++ v ++ r) =
      some ((ws, rs, v), r) := by
  have e1 := codec_wgs84.recs sized_wgs84 ws hw (rs.flatMap (out relativeLocationBytes) ++ (v ++ r))
  have e2 := PyCodec.recs_length sized_wgs84 ws hw
  have e3 := codec_relativeLocation.recs sized_relativeLocation rs hr (v ++ r)
  have e4 := PyCodec.recs_length sized_relativeLocation rs hr
  rw [out_id] at e1 e2
  unfold dlTdoaTail
  simp only [List.append_assoc]
  rw [need_of_le (by rw [List.length_append]; omega), e1, ← e2, List.drop_left]
  simp only [Option.bind_eq_bind, Option.bind_some]
  rw [need_of_le (by rw [List.length_append]; omega), e3, ← e4, List.drop_left]
  simp

theorem tail_back {nw nr na : Nat} {s : Bytes} {l : List Bytes × List RelativeLocation × Bytes} {r : Bytes}
    (h : dlTdoaTail nw nr na s = some (l, r)) :
    l.1.length = nw ∧ (∀ w ∈ l.1, w.length = 12) ∧ l.2.1.length = nr ∧ (∀ x ∈ l.2.1, RelativeFits x) ∧ l.2.2.length = na ∧
      l.1.flatten.length + (l.2.1.flatMap (out relativeLocationBytes)).length + na + r.length = s.length := by
  simp only [dlTdoaTail, Option.bind_eq_bind, Option.bind_eq_some_iff, need_iff, Option.pure_def, Option.some.injEq,
    Prod.mk.injEq] at h
  obtain ⟨_, h1, ws, h2, _, h3, rs, h4, _, h5, rfl, rfl⟩ := h
  obtain ⟨h6, h7⟩ := codec_wgs84.recs_back h2
  obtain ⟨h8, h9⟩ := codec_relativeLocation.recs_back h4
  have e2 := PyCodec.recs_length sized_wgs84 ws h7
  have e4 := PyCodec.recs_length sized_relativeLocation rs h9
  rw [out_id] at e2
  simp only [List.length_drop] at h3 h5
  refine ⟨h6, h7, h8, h9, by simp; omega, ?_⟩
  dsimp only
  rw [e2, e4, h6, h8]
  simp only [List.length_drop]
  omega

theorem dl_bits (t a b w l n : Nat) (ht : t < 2) (ha : a < 2) (hb : b < 2) (hw : w < 2) (hl : l < 2) (hn : n < 16) :
    (t ||| (a <<< 1) ||| (b <<< 3) ||| (w <<< 5) ||| (l <<< 6) ||| (n <<< 7) < 2 ^ 16) ∧
    (t ||| (a <<< 1) ||| (b <<< 3) ||| (w <<< 5) ||| (l <<< 6) ||| (n <<< 7)) &&& 0x1 = t ∧
    ((t ||| (a <<< 1) ||| (b <<< 3) ||| (w <<< 5) ||| (l <<< 6) ||| (n <<< 7)) >>> 1) &&& 0x1 = a ∧
    ((t ||| (a <<< 1) ||| (b <<< 3) ||| (w <<< 5) ||| (l <<< 6) ||| (n <<< 7)) >>> 3) &&& 0x1 = b ∧
    ((t ||| (a <<< 1) ||| (b <<< 3) ||| (w <<< 5) ||| (l <<< 6) ||| (n <<< 7)) >>> 5) &&& 0x1 = w ∧
    ((t ||| (a <<< 1) ||| (b <<< 3) ||| (w <<< 5) ||| (l <<< 6) ||| (n <<< 7)) >>> 6) &&& 0x1 = l ∧
    ((t ||| (a <<< 1) ||| (b <<< 3) ||| (w <<< 5) ||| (l <<< 6) ||| (n <<< 7)) >>> 7) &&& 0xf = n := by
  have e : t ||| (a <<< 1) ||| (b <<< 3) ||| (w <<< 5) ||| (l <<< 6) ||| (n <<< 7) =
      n * 128 + l * 64 + w * 32 + b * 8 + a * 2 + t := by
    have step : ∀ {x k : Nat}, x < 2 ^ k → ∀ y, x ||| (y <<< k) = y * 2 ^ k + x := fun {x k} h y => by
      rw [Nat.or_comm, ← Nat.shiftLeft_add_eq_or_of_lt h, Nat.shiftLeft_eq]
    rw [step (k := 1) ht, step (k := 3) (by omega), step (k := 5) (by omega), step (k := 6) (by omega),
      step (k := 7) (by omega)]
    omega
  rw [e]
  have and1 : ∀ v : Nat, v &&& 0x1 = v % 2 := fun v => Nat.and_two_pow_sub_one_eq_mod v 1
  have and15 : ∀ v : Nat, v &&& 0xf = v % 16 := fun v => Nat.and_two_pow_sub_one_eq_mod v 4
  rw [and1, and1, and1, and1, and1, and15]
  simp only [Nat.shiftRight_eq_div_pow]
  omega

theorem times_forward {a b c d e : Nat} (h1 : a < 2 ^ 16) (h2 : b < 2 ^ 16) (h3 : c < 2 ^ 32) (h4 : d < 2 ^ 32)
    (h5 : e < 2 ^ 16) (r : Bytes) :
    dlTdoaTimes (int 2 a ++ int 2 b ++ int 4 c ++ int 4 d ++ int 2 e ++ r) = some (⟨a, b, c, d, e⟩, r) := by
  simp only [int2 h1, int2 h2, int4 h3, int4 h4, int2 h5, List.cons_append, List.nil_append]
  unfold dlTdoaTimes
  rw [need_of_le (by simp)]
  simp only [le, slice, List.take_succ_cons, List.take_zero, List.drop_succ_cons, List.drop_zero, nat2 h1, nat2 h2, nat4 h3,
    nat4 h4, nat2 h5]
  rfl

theorem bits_of {m : DlTdoa} (h : m.txTimestampType < 2) (hw : m.wgs84Location.length ≤ 1)
    (hl : m.relativeLocation.length ≤ 1) (hn : m.activeRangingRounds.length ≤ 15) :
    m.bits < 2 ^ 16 ∧ m.bits &&& 0x1 = m.txTimestampType ∧ (m.bits >>> 1) &&& 0x1 = (if m.txTimestamp64.isSome then 1 else 0) ∧
      (m.bits >>> 3) &&& 0x1 = (if m.rxTimestamp64.isSome then 1 else 0) ∧ (m.bits >>> 5) &&& 0x1 = m.wgs84Location.length ∧
      (m.bits >>> 6) &&& 0x1 = m.relativeLocation.length ∧ (m.bits >>> 7) &&& 0xf = m.activeRangingRounds.length := by
  have key := dl_bits m.txTimestampType (if m.txTimestamp64.isSome then 1 else 0) (if m.rxTimestamp64.isSome then 1 else 0)
    m.wgs84Location.length m.relativeLocation.length m.activeRangingRounds.length h (by split <;> decide)
    (by split <;> decide) (by omega) (by omega) (by omega)
  unfold DlTdoa.bits
  rw [cut_of (k := 1) h, List.take_of_length_le hw, List.take_of_length_le hl, List.take_of_length_le hn]
  exact key

/-- What is written, with the parts that may fail. -/
theorem dlTdoaBytes_of {m : DlTdoa} (hs : m.status < 2 ^ 8) (ht : m.txTimestampType < 2) (hw : m.wgs84Location.length ≤ 1)
    (hl : m.relativeLocation.length ≤ 1) (hr : ∀ l ∈ m.relativeLocation, RelativeFits l)
    (hn : m.activeRangingRounds.length ≤ 15) {x y z w : Bytes} (h1 : optional 5 m.txTimestamp40 = some x)
    (h2 : optional 8 m.txTimestamp64 = some y) (h3 : optional 5 m.rxTimestamp40 = some z)
    (h4 : optional 8 m.rxTimestamp64 = some w) :
    dlTdoaBytes m = some (([UInt8.ofNat m.status] ++ int 1 m.messageType ++ leBytes 2 m.bits ++ int 2 m.blockIndex ++
      int 1 m.roundIndex ++ int 1 m.nlos ++
      int 2 m.aoaAzimuth ++ int 1 m.aoaAzimuthFom ++ int 2 m.aoaElevation ++ int 1 m.aoaElevationFom ++ int 1 m.rssi) ++
      (x ++ y) ++ (z ++ w) ++
      (int 2 m.anchorCfo ++ int 2 m.cfo ++ int 4 m.initiatorReplyTime ++ int 4 m.responderReplyTime ++
        int 2 m.initiatorResponderTof) ++
      (m.wgs84Location.flatten ++ m.relativeLocation.flatMap (out relativeLocationBytes) ++ m.activeRangingRounds)) := by
  have hb := (bits_of ht hw hl hn).1
  unfold dlTdoaBytes
  rw [byte_of hs, exactly_of (k := 2) hb, h1, h2, h3, h4, List.take_of_length_le hl, List.take_of_length_le hw,
    List.take_of_length_le hn, mapM_out fun l h => codec_relativeLocation.write (hr l h)]
  rfl

theorem codec_dlTdoa : PyCodec dlTdoa dlTdoaBytes DlTdoaFits := by
  constructor
  · intro m h
    obtain ⟨h0, h1, h2, h3, h4, h5, h6, h7, h8, h9, h10, h11, h12, h13, h14, h15, h16, h17, h18, h19, h20, h21, h22⟩ := h
    obtain ⟨x, y, k1, k2, k3⟩ := stamp_forward h11
    obtain ⟨z, w, k4, k5, k6⟩ := stamp_forward h12
    obtain ⟨b0, b1, b2, b3, b4, b5, b6⟩ := bits_of h2 h18 h20 h22
    refine ⟨_, dlTdoaBytes_of h0 h2 h18 h20 h21 h22 k1 k2 k4 k5, fun r => ?_⟩
    have e0 : leBytes 2 m.bits = [UInt8.ofNat m.bits, UInt8.ofNat (m.bits / 256)] := rfl
    simp only [int1 h1, e0, int2 h3, int1 h4, int1 h5, int2 h6, int1 h7, int2 h8, int1 h9, int1 h10, List.cons_append,
      List.nil_append]
    unfold dlTdoa
    rw [need_of_le (by simp)]
    simp only [le, slice, idx, List.take_succ_cons, List.take_zero, List.drop_succ_cons, List.drop_zero,
      List.getD_cons_succ, List.getD_cons_zero, nat1 h0, nat1 h1, nat2 b0, nat2 h3, nat1 h4, nat1 h5, nat2 h6, nat1 h7,
      nat2 h8, nat1 h9, nat1 h10]
    rw [b1, b2, b3, b4, b5, b6]
    simp only [Option.bind_eq_bind, Option.bind_some]
    have q1 := k3 ((z ++ w) ++ ((int 2 m.anchorCfo ++ int 2 m.cfo ++ int 4 m.initiatorReplyTime ++
      int 4 m.responderReplyTime ++ int 2 m.initiatorResponderTof) ++
      ((m.wgs84Location.flatten ++ m.relativeLocation.flatMap (out relativeLocationBytes) ++ m.activeRangingRounds) ++ r)))
    have q2 := k6 ((int 2 m.anchorCfo ++ int 2 m.cfo ++ int 4 m.initiatorReplyTime ++
      int 4 m.responderReplyTime ++ int 2 m.initiatorResponderTof) ++
      ((m.wgs84Location.flatten ++ m.relativeLocation.flatMap (out relativeLocationBytes) ++ m.activeRangingRounds) ++ r))
    have q3 := times_forward h13 h14 h15 h16 h17
      ((m.wgs84Location.flatten ++ m.relativeLocation.flatMap (out relativeLocationBytes) ++ m.activeRangingRounds) ++ r)
    have q4 := tail_forward m.activeRangingRounds h19 h21 r
    simp only [List.append_assoc] at q1 q2 q3 q4 ⊢
    rw [q1]
    simp only [Option.bind_some]
    rw [q2]
    simp only [Option.bind_some]
    rw [q3]
    simp only [Option.bind_some]
    rw [q4]
    rfl
  · intro s m r h
    simp only [dlTdoa, Option.bind_eq_bind, Option.bind_eq_some_iff, need_iff, Option.pure_def, Option.some.injEq,
      Prod.mk.injEq, Prod.exists] at h
    obtain ⟨_, h1, a, b, s1, h2, c, d, s2, h3, t, s3, h4, l1, l2, l3, s4, h5, rfl, rfl⟩ := h
    simp only [dlTdoaTimes, Option.bind_eq_bind, Option.bind_eq_some_iff, need_iff, Option.pure_def, Option.some.injEq,
      Prod.mk.injEq] at h4
    obtain ⟨_, h4, rfl, rfl⟩ := h4
    obtain ⟨k1, x, y, k2, k3, k4⟩ := stamp_back h2
    obtain ⟨k5, z, w, k6, k7, k8⟩ := stamp_back h3
    obtain ⟨k9, k10, k11, k12, k13, k14⟩ := tail_back h5
    have and1 : ∀ v : Nat, v &&& 0x1 < 2 := fun v => by
      rw [Nat.and_two_pow_sub_one_eq_mod v 1]; exact Nat.mod_lt _ (by decide)
    have and15 : ∀ v : Nat, v &&& 0xf < 16 := fun v => by
      rw [Nat.and_two_pow_sub_one_eq_mod v 4]; exact Nat.mod_lt _ (by decide)
    have g1 := and1 (le s 2 4 >>> 5)
    have g2 := and1 (le s 2 4 >>> 6)
    have g3 := and15 (le s 2 4 >>> 7)
    dsimp only at k9 k10 k11 k12 k13 k14
    refine ⟨⟨idx_lt s _, idx_lt s _, and1 _, le_lt s 4 6, idx_lt s _, idx_lt s _, le_lt s 8 10, idx_lt s _, le_lt s 11 13,
      idx_lt s _, idx_lt s _, k1, k5, le_lt s2 0 2, le_lt s2 2 4, le_lt s2 4 8, le_lt s2 8 12, le_lt s2 12 14,
      by dsimp only; omega, k10, by dsimp only; omega, k12, by dsimp only; omega⟩, _,
      dlTdoaBytes_of (idx_lt s _) (and1 _) (by dsimp only; omega) (by dsimp only; omega) k12 (by dsimp only; omega)
        k2 k3 k6 k7, ?_⟩
    simp only [List.length_append, int_length, length_leBytes, List.length_cons, List.length_nil]
    rw [List.length_drop] at k4 k14
    omega

theorem codec_addressed {w bits : Nat} (hb : 256 ^ w = 2 ^ bits) :
    PyCodec (addressedDlTdoa w) (addressedDlTdoaBytes w) (AddressedFits bits) := by
  constructor
  · rintro ⟨a, m⟩ ⟨h1, h2⟩
    dsimp only at h1 h2
    rw [← hb] at h1
    refine ⟨_, by rw [addressedDlTdoaBytes, codec_dlTdoa.write h2]; rfl, fun r => ?_⟩
    unfold addressedDlTdoa
    dsimp only
    rw [need_of_le (by simp [int_length]), int_of h1]
    have e1 : (leBytes w a ++ out dlTdoaBytes m ++ r).drop w = out dlTdoaBytes m ++ r := by
      rw [List.append_assoc, List.drop_append_of_le_length (by simp), List.drop_of_length_le (by simp), List.nil_append]
    have e2 : le (leBytes w a ++ out dlTdoaBytes m ++ r) 0 w = a := by
      unfold le slice
      rw [List.append_assoc, List.take_append_of_le_length (by simp), List.take_of_length_le (by simp), List.drop_zero,
        ofLe_of h1]
    rw [e1, e2, codec_dlTdoa.reads h2]
    rfl
  · intro s x r h
    simp only [addressedDlTdoa, Option.bind_eq_bind, Option.bind_eq_some_iff, need_iff, Option.pure_def, Option.some.injEq,
      Prod.mk.injEq, Prod.exists] at h
    obtain ⟨_, h1, m, r', h2, rfl, rfl⟩ := h
    obtain ⟨h3, b, h4, h5⟩ := codec_dlTdoa.2 _ _ _ h2
    have h6 := le_lt s 0 w
    rw [Nat.sub_zero, hb] at h6
    refine ⟨⟨h6, h3⟩, _, by rw [addressedDlTdoaBytes, h4]; rfl, ?_⟩
    rw [List.length_drop] at h5
    simp only [List.length_append, int_length]
    omega

end Pica.Py

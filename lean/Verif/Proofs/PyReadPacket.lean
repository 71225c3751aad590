import Verif.Proofs.PyReadClasses
/-! What `uci.py` reads has the layout of the packet description: whole packets. -/

namespace Pica.Py
open Spec
open Spec.Pdl (Pattern nat gap octets Agrees Matches Takes takes_nil takes_octets takes_all takes_gap takes_ofLe nat_add nat_and)

/-- Not the answer to a multicast update, of which `uci.py` reads only a part. -/
def NotMulticastRsp (o : Obj) : Prop := ∀ s, o ≠ .sessionUpdateControllerMulticastListRsp s

/-- What the class reads has its layout, that answer aside. -/
def ReadsOther (c : Nat → Nat → Bytes → Option (Obj × Bytes)) : Prop :=
  ∀ mt oid s o r, NotMulticastRsp o → c mt oid s = some (o, r) → Takes (bodyPat o) s r

theorem ReadsLayout.other {c} (h : ReadsLayout c) : ReadsOther c := fun mt oid s o r _ hc => h mt oid s o r hc

theorem rd_sessionUpdateControllerMulticastListRsp : ReadsOther sessionUpdateControllerMulticastListRsp := by
  intro mt oid s o r hn h
  simp only [sessionUpdateControllerMulticastListRsp, Option.bind_eq_bind, Option.bind_eq_some_iff] at h
  obtain ⟨_, _, h⟩ := h
  obtain ⟨v, rfl, _⟩ := back_status h
  exact (hn v rfl).elim

theorem rd_group {mt oid : Nat} {p : Bytes} {o : Obj} (l : List (Nat → Nat → Bytes → Option (Obj × Bytes)))
    (hl : ∀ c ∈ l, ReadsOther c) (hn : NotMulticastRsp o) (h : firstChild (l.map fun c => c mt oid p) = some o) :
    Takes (bodyPat o) p [] := by
  have h1 := mem_of_firstChild h
  rw [List.mem_map] at h1
  obtain ⟨c, hc, h2⟩ := h1
  exact hl c hc _ _ _ _ _ hn h2

theorem rd_coreChild {mt oid : Nat} {p : Bytes} {o : Obj} (hn : NotMulticastRsp o) (h : coreChild mt oid p = some o) :
    Takes (bodyPat o) p [] := by
  refine rd_group [coreDeviceResetCmd, coreDeviceResetRsp, coreDeviceStatusNtf, coreGetDeviceInfoCmd, coreGetDeviceInfoRsp, coreGetCapsInfoCmd, coreGetCapsInfoRsp, coreSetConfigCmd, coreSetConfigRsp, coreGetConfigCmd, coreGetConfigRsp, coreGenericErrorNtf, coreQueryTimeStampCmd, coreQueryTimeStampRsp] ?_ hn h
  simp only [List.forall_mem_cons, List.not_mem_nil]
  exact ⟨rd_coreDeviceResetCmd.other, rd_coreDeviceResetRsp.other, rd_coreDeviceStatusNtf.other, rd_coreGetDeviceInfoCmd.other, rd_coreGetDeviceInfoRsp.other, rd_coreGetCapsInfoCmd.other, rd_coreGetCapsInfoRsp.other, rd_coreSetConfigCmd.other, rd_coreSetConfigRsp.other, rd_coreGetConfigCmd.other, rd_coreGetConfigRsp.other, rd_coreGenericErrorNtf.other, rd_coreQueryTimeStampCmd.other, rd_coreQueryTimeStampRsp.other, fun _ h => h.elim⟩

theorem rd_sessionConfigChild {mt oid : Nat} {p : Bytes} {o : Obj} (hn : NotMulticastRsp o) (h : sessionConfigChild mt oid p = some o) :
    Takes (bodyPat o) p [] := by
  refine rd_group [sessionInitCmd, sessionInitRspV2, sessionInitRsp, sessionDeinitCmd, sessionDeinitRsp, sessionStatusNtf, sessionSetAppConfigCmd, sessionSetAppConfigRsp, sessionGetAppConfigCmd, sessionGetAppConfigRsp, sessionGetCountCmd, sessionGetCountRsp, sessionGetStateCmd, sessionGetStateRsp, sessionUpdateDtAnchorRangingRoundsCmd, sessionUpdateDtAnchorRangingRoundsRsp, sessionUpdateDtTagRangingRoundsCmd, sessionUpdateDtTagRangingRoundsRsp, sessionUpdateControllerMulticastListCmd, sessionUpdateControllerMulticastListRsp, sessionUpdateControllerMulticastListNtf, sessionQueryMaxDataSizeInRangingCmd, sessionQueryMaxDataSizeInRangingRsp] ?_ hn h
  simp only [List.forall_mem_cons, List.not_mem_nil]
  exact ⟨rd_sessionInitCmd.other, rd_sessionInitRspV2.other, rd_sessionInitRsp.other, rd_sessionDeinitCmd.other, rd_sessionDeinitRsp.other, rd_sessionStatusNtf.other, rd_sessionSetAppConfigCmd.other, rd_sessionSetAppConfigRsp.other, rd_sessionGetAppConfigCmd.other, rd_sessionGetAppConfigRsp.other, rd_sessionGetCountCmd.other, rd_sessionGetCountRsp.other, rd_sessionGetStateCmd.other, rd_sessionGetStateRsp.other, rd_sessionUpdateDtAnchorRangingRoundsCmd.other, rd_sessionUpdateDtAnchorRangingRoundsRsp.other, rd_sessionUpdateDtTagRangingRoundsCmd.other, rd_sessionUpdateDtTagRangingRoundsRsp.other, rd_sessionUpdateControllerMulticastListCmd.other, rd_sessionUpdateControllerMulticastListRsp, rd_sessionUpdateControllerMulticastListNtf.other, rd_sessionQueryMaxDataSizeInRangingCmd.other, rd_sessionQueryMaxDataSizeInRangingRsp.other, fun _ h => h.elim⟩

theorem rd_sessionControlChild {mt oid : Nat} {p : Bytes} {o : Obj} (hn : NotMulticastRsp o) (h : sessionControlChild mt oid p = some o) :
    Takes (bodyPat o) p [] := by
  refine rd_group [sessionDataCreditNtf, sessionDataTransferStatusNtf, sessionStartCmd, sessionStartRsp, sessionInfoNtf, sessionStopCmd, sessionStopRsp, sessionGetRangingCountCmd, sessionGetRangingCountRsp] ?_ hn h
  simp only [List.forall_mem_cons, List.not_mem_nil]
  exact ⟨rd_sessionDataCreditNtf.other, rd_sessionDataTransferStatusNtf.other, rd_sessionStartCmd.other, rd_sessionStartRsp.other, rd_sessionInfoNtf.other, rd_sessionStopCmd.other, rd_sessionStopRsp.other, rd_sessionGetRangingCountCmd.other, rd_sessionGetRangingCountRsp.other, fun _ h => h.elim⟩

theorem rd_androidChild {mt oid : Nat} {p : Bytes} {o : Obj} (hn : NotMulticastRsp o) (h : androidChild mt oid p = some o) :
    Takes (bodyPat o) p [] := by
  refine rd_group [androidGetPowerStatsCmd, androidGetPowerStatsRsp, androidSetCountryCodeCmd, androidSetCountryCodeRsp, androidRangeDiagnosticsNtf] ?_ hn h
  simp only [List.forall_mem_cons, List.not_mem_nil]
  exact ⟨rd_androidGetPowerStatsCmd.other, rd_androidGetPowerStatsRsp.other, rd_androidSetCountryCodeCmd.other, rd_androidSetCountryCodeRsp.other, rd_androidRangeDiagnosticsNtf.other, fun _ h => h.elim⟩

theorem rd_groupChild {g mt oid : Nat} {p : Bytes} {o : Obj} (hn : NotMulticastRsp o) (h : groupChild g mt oid p = some o) :
    Takes (bodyPat o) p [] := by
  unfold groupChild at h
  split at h
  · exact rd_coreChild hn h
  split at h
  · exact rd_sessionConfigChild hn h
  split at h
  · exact rd_sessionControlChild hn h
  · exact rd_androidChild hn h

/-- Neither data nor a packet with nothing but the first byte. -/
theorem headPat_of {o : Obj} (hd : ¬ IsData o) (hc : ∀ g m p, o ≠ .controlPacket g m p) :
    headPat o = firstPat o.code.1 o.code.2.1 ++ opcodePat o.code.2.2 := by
  cases o with
  | controlPacket g m p => exact (hc g m p rfl).elim
  | dataPacket => exact (hd trivial).elim
  | dataMessageSnd => exact (hd trivial).elim
  | dataMessageRcv => exact (hd trivial).elim
  | _ => rfl

theorem groupChild_code {g mt oid : Nat} {p : Bytes} {o : Obj} (hv : validCode (g, mt, oid) = true)
    (h : groupChild g mt oid p = some o) :
    o.code = (g, mt, oid) ∧ (ObjFits o ∨ ∃ n t r i y d p, o = .sessionInfoNtf n t r i y d p) := by
  simp only [validCode, Bool.and_eq_true, Bool.or_eq_true, decide_eq_true_eq] at hv
  unfold groupChild at h
  rcases hv with ⟨_, ((⟨rfl, ho⟩ | ⟨rfl, ho⟩) | ⟨rfl, ho⟩) | ⟨rfl, ho⟩⟩
  · obtain ⟨h1, h2, _⟩ := back_coreChild h
    exact ⟨h1, Or.inl h2⟩
  · obtain ⟨h1, h2, _⟩ := back_sessionConfigChild h
    exact ⟨h1, Or.inl h2⟩
  · obtain ⟨h1, h2, _⟩ := back_sessionControlChild h
    exact ⟨h1, h2.imp id And.right⟩
  · obtain ⟨h1, h2, _⟩ := back_androidChild h
    exact ⟨h1, Or.inl h2⟩

/-! ### Heads -/

theorem nat_first (v : Nat) : nat 8 v = nat 4 v ++ (nat 1 (v >>> 4) ++ nat 3 (v >>> 5)) := by
  rw [show (8 : Nat) = 4 + (1 + 3) from rfl]
  simp only [nat_add, ← Nat.shiftRight_add]

theorem rd_first {s : Bytes} (h : 1 ≤ s.length) :
    Takes (firstPat (idx s 0 &&& 0xf) ((idx s 0 >>> 5) &&& 0x7)) s (s.drop 1) := by
  refine Looser.takes ?_ (rd_idx (s := s) (i := 0) (by omega))
  unfold firstPat
  rw [nat_first, nat_four, nat_and 3 (idx s 0 >>> 5)]
  exact (looser_refl _).append ((looser_gap 1 _).append (looser_refl _))

theorem rd_opcode {l : List Nat} {s p : Bytes} {oid : Nat} (h : opcode l s = some (oid, p)) : Takes (opcodePat oid) s p := by
  simp only [opcode, Option.bind_eq_bind, Option.bind_eq_some_iff, need_iff, fromInt_iff, Option.pure_def,
    Option.some.injEq, Prod.mk.injEq] at h
  obtain ⟨_, h1, v, ⟨h2, rfl⟩, rfl, rfl⟩ := h
  unfold opcodePat
  rw [nat_and 6 (idx s 0), ← List.append_assoc]
  refine Spec.Pdl.Takes.append (t := s.drop 1) ?_ (rd_gap (by omega) (by omega) (by decide))
  refine Looser.takes ?_ (rd_idx (s := s) (i := 0) (by omega))
  rw [show (8 : Nat) = 6 + 2 from rfl, nat_add]
  exact (looser_refl _).append (looser_gap 2 _)

theorem rd_dataHead {s : Bytes} (h : 4 ≤ s.length) :
    Takes (dataPat (idx s 0 &&& 0xf) ((idx s 0 >>> 4) &&& 0x1) ((idx s 0 >>> 5) &&& 0x7)) s (s.drop 4) := by
  unfold dataPat
  rw [← gap_add, nat_four, nat_one, nat_and 3 (idx s 0 >>> 5)]
  simp only [← List.append_assoc]
  refine Spec.Pdl.Takes.append (t := s.drop 1) ?_ (rd_gap (by omega) (by omega) (by decide))
  rw [List.append_assoc, ← nat_first]
  exact rd_idx (s := s) (i := 0) (by omega)

/-- A packet of one of the four groups. -/
theorem rd_controlChild {g mt : Nat} {s : Bytes} {o : Obj} (hm : mt ∈ messageTypes) (hn : NotMulticastRsp o)
    (h : controlChild g mt s = some o) : headPat o = firstPat g mt ++ opcodePat o.code.2.2 ∧
      Takes (opcodePat o.code.2.2 ++ bodyPat o) s [] := by
  have key : ∃ oid p, validCode (g, mt, oid) = true ∧ Takes (opcodePat oid) s p ∧
      o = (groupChild g mt oid p).getD (bare g mt oid p) := by
    have h := mem_of_firstChild h
    simp only [List.mem_cons, List.not_mem_nil, or_false] at h
    rcases h with h | h | h | h
    · have h := h.symm
      simp only [corePacket, Option.bind_eq_bind, Option.bind_eq_some_iff, forbid_iff, Option.pure_def, Option.some.injEq,
        Prod.mk.injEq] at h
      obtain ⟨_, h1, ⟨oid, p⟩, h2, rfl, _⟩ := h
      obtain ⟨h3, h4⟩ := opcode_iff h2
      obtain rfl : g = 0 := by omega
      exact ⟨oid, p, by simp [validCode, hm, h3], rd_opcode h2, rfl⟩
    · have h := h.symm
      simp only [sessionConfigPacket, Option.bind_eq_bind, Option.bind_eq_some_iff, forbid_iff, Option.pure_def, Option.some.injEq,
        Prod.mk.injEq] at h
      obtain ⟨_, h1, ⟨oid, p⟩, h2, rfl, _⟩ := h
      obtain ⟨h3, h4⟩ := opcode_iff h2
      obtain rfl : g = 1 := by omega
      exact ⟨oid, p, by simp [validCode, hm, h3], rd_opcode h2, rfl⟩
    · have h := h.symm
      simp only [sessionControlPacket, Option.bind_eq_bind, Option.bind_eq_some_iff, forbid_iff, Option.pure_def, Option.some.injEq,
        Prod.mk.injEq] at h
      obtain ⟨_, h1, ⟨oid, p⟩, h2, rfl, _⟩ := h
      obtain ⟨h3, h4⟩ := opcode_iff h2
      obtain rfl : g = 2 := by omega
      exact ⟨oid, p, by simp [validCode, hm, h3], rd_opcode h2, rfl⟩
    · have h := h.symm
      simp only [androidPacket, Option.bind_eq_bind, Option.bind_eq_some_iff, forbid_iff, Option.pure_def, Option.some.injEq,
        Prod.mk.injEq] at h
      obtain ⟨_, h1, ⟨oid, p⟩, h2, rfl, _⟩ := h
      obtain ⟨h3, h4⟩ := opcode_iff h2
      obtain rfl : g = 12 := by omega
      exact ⟨oid, p, by simp [validCode, hm, h3], rd_opcode h2, rfl⟩
  obtain ⟨oid, p, k1, k2, k3⟩ := key
  cases hx : groupChild g mt oid p with
  | some y =>
    rw [hx] at k3
    replace k3 : o = y := k3
    subst k3
    obtain ⟨j1, j2⟩ := groupChild_code k1 hx
    have hh : headPat o = firstPat o.code.1 o.code.2.1 ++ opcodePat o.code.2.2 := by
      refine headPat_of (back_written k1 hx).2.1 ?_
      rintro g' m' p' rfl
      rcases j2 with j2 | ⟨_, _, _, _, _, _, _, j2⟩
      · exact j2
      · cases j2
    rw [j1] at hh ⊢
    exact ⟨hh, k2.append (rd_groupChild hn hx)⟩
  | none =>
    rw [hx] at k3
    replace k3 : o = bare g mt oid p := k3
    have hg : g = 0 ∨ g = 1 ∨ g = 2 ∨ g = 12 := by
      simp only [validCode, Bool.and_eq_true, Bool.or_eq_true, decide_eq_true_eq] at k1
      rcases k1 with ⟨_, ((⟨h, _⟩ | ⟨h, _⟩) | ⟨h, _⟩) | ⟨h, _⟩⟩ <;> simp [h]
    rcases hg with rfl | rfl | rfl | rfl <;> subst k3 <;> exact ⟨rfl, k2.append (takes_all _)⟩

/-- Whatever is read as a control packet has its layout. -/
theorem rd_control {s : Bytes} {o : Obj} (hn : NotMulticastRsp o) (h : parseControl s = some o) : Matches (layout o) s := by
  rw [layout_eq]
  simp only [parseControl, Option.bind_eq_bind, Option.bind_eq_some_iff, need_iff, fromInt_iff, Option.pure_def,
    Option.some.injEq] at h
  obtain ⟨_, h1, g, ⟨hg, rfl⟩, m, ⟨hm, rfl⟩, h⟩ := h
  have k := rd_first h1
  generalize idx s 0 &&& 0xf = g at *
  generalize (idx s 0 >>> 5) &&& 0x7 = m at *
  have e : firstChild [corePacket g m (s.drop 1), sessionConfigPacket g m (s.drop 1), sessionControlPacket g m (s.drop 1),
    androidPacket g m (s.drop 1)] = controlChild g m (s.drop 1) := rfl
  rw [e] at h
  cases hc : controlChild g m (s.drop 1) with
  | some x =>
    rw [hc] at h
    replace h : x = o := h
    subst h
    obtain ⟨j1, j2⟩ := rd_controlChild hm hn hc
    rw [j1, List.append_assoc]
    exact (k.append j2).matches
  | none =>
    rw [hc] at h
    subst h
    exact (k.append (takes_all _)).matches

/-- Whatever is read as data has its layout. -/
theorem rd_data {s : Bytes} {o : Obj} (h : parseData s = some o) : Matches (layout o) s := by
  rw [layout_eq]
  simp only [parseData, Option.bind_eq_bind, Option.bind_eq_some_iff, need_iff, fromInt_iff, Option.pure_def,
    Option.some.injEq] at h
  obtain ⟨_, h1, d, ⟨hd, rfl⟩, p, ⟨hp, rfl⟩, m, ⟨hm, rfl⟩, h⟩ := h
  have k := rd_dataHead h1
  generalize idx s 0 &&& 0xf = d at *
  generalize (idx s 0 >>> 4) &&& 0x1 = p at *
  generalize (idx s 0 >>> 5) &&& 0x7 = m at *
  generalize s.drop 4 = s' at *
  cases hc : firstChild [dataMessageSnd d p m s', dataMessageRcv d p m s'] with
  | some x =>
    rw [hc] at h
    replace h : x = o := h
    subst h
    have h := mem_of_firstChild hc
    simp only [List.mem_cons, List.not_mem_nil, or_false] at h
    rcases h with h | h <;> replace h := h.symm
    · simp only [dataMessageSnd, Option.bind_eq_bind, Option.bind_eq_some_iff, forbid_iff, need_iff, Option.pure_def,
        Option.some.injEq, Prod.mk.injEq] at h
      obtain ⟨_, hf, _, h2, _, h3, rfl, h4⟩ := h
      obtain ⟨rfl, rfl⟩ : d = 1 ∧ m = 0 := by omega
      refine (k.append ?_).matches
      rw [← h4]
      show Takes _ (s'.drop 0) _
      simp only [bodyPat]
      have e : ((s'.drop 16).take (le s' 14 16)).length = le s' 14 16 := by rw [List.length_take]; omega
      rw [e]
      rdf; rdf; rdf; rdf
      exact takes_octets
    · simp only [dataMessageRcv, Option.bind_eq_bind, Option.bind_eq_some_iff, forbid_iff, need_iff, Option.pure_def,
        Option.some.injEq, Prod.mk.injEq] at h
      obtain ⟨_, hf, _, h2, _, h3, rfl, h4⟩ := h
      obtain ⟨rfl, rfl⟩ : d = 2 ∧ m = 0 := by omega
      refine (k.append ?_).matches
      rw [← h4]
      show Takes _ (s'.drop 0) _
      simp only [bodyPat]
      have e : ((s'.drop 17).take (le s' 15 17)).length = le s' 15 17 := by rw [List.length_take]; omega
      rw [e]
      rdf; rdf; rdf; rdf; rdf
      exact takes_octets
  | none =>
    rw [hc] at h
    subst h
    exact (k.append (takes_all _)).matches

/-- What is read has its layout. -/
theorem rd_readAs {s : Bytes} {o : Obj} (hn : NotMulticastRsp o) (h : ReadAs s o) : Matches (layout o) s := by
  rcases h with ⟨_, h⟩ | ⟨_, h⟩
  · exact rd_data h
  · exact rd_control hn h

end Pica.Py

import Verif.Proofs.PyShowNamed
import Verif.Proofs.PyShowDump
import Verif.Proofs.PyShowSent
import Verif.Proofs.PyShownLine
import Verif.Props.PyUci
import Verif.Props.PyPackets
/-! C106: what the console prints of a packet. -/

namespace Pica.Props
open Spec Py

/-- The packet is read and its description is printed to the end. -/
def InFull (b : Bytes) : Prop := ∃ o, parseControl b = some o ∧ o.show.returned = true

/-- C106: the text printed to the end tells the object, except for its payload and time stamps. -/
theorem C106_tells (o o' : Obj) (h : o.show.returned = true) (h' : o'.show.returned = true) :
    o.show.text = o'.show.text ↔ visible o = visible o' := by
  refine ⟨PyShow.show_told h h', fun e => ?_⟩
  rw [← PyShow.show_visible o, e, PyShow.show_visible o']

example : (Obj.sessionStatusNtf 7 2 0).show.returned = true ∧ (Obj.sessionStatusNtf 7 3 0).show.returned = true ∧
    visible (.sessionStatusNtf 7 2 0) ≠ visible (.sessionStatusNtf 7 3 0) := ⟨by decide +kernel, by decide +kernel, by decide⟩

/-- C106: an object that was read is printed to the end exactly if every status, parameter and capability in it has a name. -/
theorem C106_complete (s : Bytes) (o : Obj) (h : ReadAs s o) : o.show.returned = true ↔ AllNamed o :=
  PyShow.show_returned h

example : ReadAs [0x41, 3, 0, 0, 4, 1, 0xa0, 4] (.sessionSetAppConfigRsp 4 [(0xa0, 4)]) ∧
    ¬ AllNamed (.sessionSetAppConfigRsp 4 [(0xa0, 4)]) ∧ AllNamed (.sessionSetAppConfigRsp 4 [(0x2c, 4)]) :=
  ⟨Or.inr ⟨fun h => h, by decide +kernel⟩,
    by simp only [AllNamed, List.mem_singleton, forall_eq]; decide +kernel,
    by simp only [AllNamed, List.mem_singleton, forall_eq]; decide +kernel⟩

/-- What the console prints in full: every notification, a response exactly if it is that to a multicast list update or every
identifier in it has a name, and the answer to a malformed packet exactly if its group has a name. -/
def Describes (b : Bytes) : Packet → Prop
  | .ntf _ => InFull b
  | .rsp r => InFull b ↔ IsMulticastRsp r ∨ NamedIds r
  | .control _ => InFull b
  | .raw q => InFull b ↔ (q.headD 0).toNat % 16 ∉ reservedGroups
  | .data _ => True

theorem refusal_full {b : Bytes} {o : Obj} {st : Nat} (hst : NamedStatus st) (h : parseControl b = some o) (hr : Refusal st o) :
    InFull b := by
  refine ⟨o, h, (C106_complete b o (Or.inr ⟨?_, h⟩)).mpr ?_⟩
  · intro hd
    cases o <;> first | exact hr | exact hd
  · cases o <;> first | exact hr.elim | trivial | (cases hr; exact hst)

/-- C106: in every schedule the console prints exactly this much of the messages sent to its device. Data are put on a queue that
it does not read. -/
theorem C106_schedule (ls : List System.Label) (s : System) (hr : System.Run .new ls s) (h : Nat) (ps : List Packet)
    (hps : ps <+: ls.flatMap (sentTo h)) :
    ∃ fss : List (List Bytes),
      List.Forall₂ (fun p fs => ∃ b, p.encode = some b ∧ segment b = .ok fs) ps fss ∧
      ∀ fuel, ps.length ≤ fuel → List.Forall₂ Describes (Host.readPackets fuel fss.flatten.flatten) ps := by
  obtain ⟨fss, h1, h2⟩ := C71_schedule_partial ls s hr h ps hps
  refine ⟨fss, h1, fun fuel hf => ?_⟩
  have hm : ∀ p ∈ ps, Made p := fun p hp => ((fit_run hr).2 h p (hps.subset hp)).2
  have h3 := h2 fuel hf
  have key : ∀ b p, Made p → PyReads b p → Describes b p := by
    intro b p hm hb
    have h7 : NamedStatus 7 := by decide
    have h8 : NamedStatus 8 := by decide
    cases p with
    | data d => trivial
    | control q =>
      obtain ⟨o, ho, hs⟩ := hb
      exact refusal_full h7 ho hs
    | raw q =>
      have hb : if (q.headD 0).toNat % 16 ∈ reservedGroups then parseControl b = none
        else ∃ o, parseControl b = some o ∧ (Refusal 7 o ∨ Refusal 8 o) := hb
      split at hb
      · rename_i hq
        exact iff_of_false (fun ⟨o, ho, _⟩ => by rw [hb] at ho; cases ho) (fun h => h hq)
      · rename_i hq
        obtain ⟨o, ho, hs | hs⟩ := hb
        · exact iff_of_true (refusal_full h7 ho hs) hq
        · exact iff_of_true (refusal_full h8 ho hs) hq
    | ntf n =>
      have hb : parseControl b = some (pyNtf n) := hb
      refine ⟨_, hb, (C106_complete b _ (Or.inr ⟨by cases n <;> exact fun h => h, hb⟩)).mpr ?_⟩
      cases n
      case sessionInfo n t r i m v =>
        intro x hx
        obtain ⟨y, hy, rfl⟩ := List.mem_map.mp hx
        have : y.status = .ok := hm y hy
        show NamedStatus y.status.code.toNat
        rw [this]
        decide
      all_goals trivial
    | rsp r =>
      show InFull b ↔ _
      by_cases hr : IsMulticastRsp r
      · cases r <;> first | exact hr.elim | skip
        rename_i s c
        have hb : parseControl b = some (.sessionConfigPacket 2 7 (rspPayload (.sessionUpdateMulticast s c))) := hb
        have hd : ¬ IsData (.sessionConfigPacket 2 7 (rspPayload (.sessionUpdateMulticast s c))) := fun h => h
        exact iff_of_true ⟨_, hb, (C106_complete b _ (Or.inr ⟨hd, hb⟩)).mpr trivial⟩ (.inl trivial)
      · obtain ⟨d, d', tid, c, e, hx⟩ := hm
        have hb : parseControl b = some (pyRsp r) := by
          cases r <;> first | exact hb | exact absurd trivial hr
        have hn := PyShow.exec_known hx hr
        have hc := C106_complete b _ (Or.inr ⟨by cases r <;> exact fun h => h, hb⟩)
        constructor
        · rintro ⟨o, ho, hs⟩
          rw [hb] at ho
          cases ho
          exact .inr (hn.mp (hc.mp hs))
        · rintro (h | h)
          · exact absurd h hr
          · exact ⟨_, hb, hc.mpr (hn.mpr h)⟩
  clear h1 h2 hf hps
  generalize Host.readPackets fuel fss.flatten.flatten = bs at h3
  induction h3 with
  | nil => exact .nil
  | cons hb _ ih =>
    exact .cons (key _ _ (hm _ List.mem_cons_self) hb) (ih fun p hp => hm p (List.mem_cons_of_mem _ hp))

/-- The answers to 80 00 (message type 4), to a command of group 4 and to one of group 9. -/
example : parseControl [0x40, 0, 0, 1, 8] = some (.coreDeviceResetRsp 8) ∧ parseControl [0x44, 0, 0, 1, 7] = none ∧
    parseControl [0x49, 0, 0, 1, 7] = some (.controlPacket 9 2 [0, 0, 1, 7]) := by decide +kernel

example : NamedIds (.sessionSetAppConfig .invalidParam [⟨⟨0x2c⟩, .invalidParam⟩]) ∧
    ¬ NamedIds (.sessionSetAppConfig .invalidParam [⟨⟨0xa0⟩, .invalidParam⟩]) ∧
    ¬ NamedIds (.coreGetCapsInfo .ok defaultCapsInfo) := by
  simp only [NamedIds, List.mem_singleton, forall_eq]
  decide +kernel

/-- C106 is false: the answer to CORE_GET_CAPS_INFO is never printed in full. The description ends within the eighteenth of the
twenty-seven capabilities, the first whose name lies in a range left to vendors, which `uci.py` does not take over. -/
theorem C106_false (d : Device) (tid : Nat) : ∃ r, d.exec tid .coreGetCapsInfo = .ok (d, r, []) ∧
    (∀ b, IsControl 2 (rspCode r) (rspPayload r) b → ¬ InFull b ∧
      ∃ t, (parseControl b).map (fun o => o.show.text) = some (t ++ "    ├── [17]  = CapTlv\n".toList)) ∧
    rspFits r := by
  refine ⟨_, rfl, ?_, caps_fit⟩
  intro b hb
  have h1 := C71_rsp_partial (.coreGetCapsInfo .ok defaultCapsInfo) (fun h => h) caps_fit b hb
  have h2 : (pyRsp (.coreGetCapsInfo .ok defaultCapsInfo)).show.returned = false := by decide +kernel
  have h3 : ((pyRsp (.coreGetCapsInfo .ok defaultCapsInfo)).show.text.drop
      ((pyRsp (.coreGetCapsInfo .ok defaultCapsInfo)).show.text.length - 23)) = "    ├── [17]  = CapTlv\n".toList := by decide +kernel
  refine ⟨?_, ?_⟩
  · rintro ⟨o, ho, hs⟩
    rw [h1] at ho
    cases ho
    rw [h2] at hs
    cases hs
  · rw [h1]
    refine ⟨(pyRsp (.coreGetCapsInfo .ok defaultCapsInfo)).show.text.take
      ((pyRsp (.coreGetCapsInfo .ok defaultCapsInfo)).show.text.length - 23), ?_⟩
    rw [← h3, List.take_append_drop]
    rfl

/-- C106: the console prints the fields of the packet description, those fixed by the packet included, with their names and
their values, however deep, and no others but the payload. -/
theorem C106_fields (o : Obj) : SameFields (Same 3) o.value (attributes o) := fields_obj o

/-- C106: names are not used twice. -/
theorem C106_names (c : Class) : (c.fields.map (·.1)).Nodup := by cases c <;> decide

/-- C106: each of them has a line: its name, then a number in both bases or with the name that stands for it, bytes as numbers,
or nothing where the lines of the elements follow. -/
theorem C106_lines (o : Obj) (h : o.show.returned = true) (x : String × Pdl.Value) (hx : x ∈ attributes o) (hp : x.1 ≠ "payload") :
    ∃ a mark gap text b, o.show.text = a ++ '\n' :: mark ++ x.1.toList ++ gap ++ text ++ '\n' :: b ∧
      (mark = "├── ".toList ∨ mark = "└── ".toList) ∧ (∀ c ∈ gap, c = ' ') ∧ Line text x.2 := PyShow.show_line h hx hp

example : (Obj.sessionStatusNtf 7 2 0).show.returned = true ∧ ("session_state", .int 2) ∈ attributes (.sessionStatusNtf 7 2 0) ∧
    ("oid", .int 2) ∈ attributes (.sessionStatusNtf 7 2 0) := by
  refine ⟨by decide +kernel, ?_, ?_⟩ <;>
    simp [attributes, fixedOf, packetOf, Spec.Pdl.sessionStatusNtf, Spec.Pdl.sessionConfigPacket, Spec.Pdl.controlPacket]

/-- C106: the time stamps of a DL-TDoA measurement are not printed, whatever they are. -/
theorem C106_stamps (n t r i : Nat) (l : List (Nat × DlTdoa)) :
    (Obj.shortMacDlTDoASessionInfoNtf n t r i l).show =
      (Obj.shortMacDlTDoASessionInfoNtf n t r i (l.map fun m => (m.1, unstamped m.2))).show ∧
    (Obj.extendedMacDlTDoASessionInfoNtf n t r i l).show =
      (Obj.extendedMacDlTDoASessionInfoNtf n t r i (l.map fun m => (m.1, unstamped m.2))).show :=
  ⟨(PyShow.show_visible (.shortMacDlTDoASessionInfoNtf n t r i l)).symm,
    (PyShow.show_visible (.extendedMacDlTDoASessionInfoNtf n t r i l)).symm⟩

/-- C106: of every packet received, whether it can be read or not, the bytes are printed, in lines of sixteen, two digits each, so
that they can be read back. -/
theorem C106_dump (b : Bytes) : readHex (dump b) = some b ∧ ∃ rows : List Bytes, rows.flatten = b ∧
    (∀ l ∈ rows, 0 < l.length ∧ l.length ≤ 16) ∧ (∀ l ∈ rows.dropLast, l.length = 16) ∧
    dump b = List.intercalate "\n  ".toList (rows.map fun l => List.intercalate [' '] (l.map fun x =>
      [hexDigit (x.toNat / 16), hexDigit (x.toNat % 16)])) := by
  obtain ⟨h1, h2⟩ := PyShow.chunks_length 15 b
  exact ⟨PyShow.readHex_dump b, chunks 15 b, PyShow.chunks_flatten 15 b, h1, h2, rfl⟩

example : dump (List.range 17 |>.map fun n => UInt8.ofNat (15 * n)) =
    "00 0f 1e 2d 3c 4b 5a 69 78 87 96 a5 b4 c3 d2 e1\n  f0".toList := by decide +kernel

/-- C106: the text begins with the number of bytes and the bytes; the description follows if the packet can be read. -/
theorem C106_header (p : Bytes) : report p = "\rReceived UCI packet [".toList ++ Nat.toDigits 10 p.length ++ "]:\n  ".toList ++
    dump p ++ '\n' :: ((parseControl p).map fun o => o.show.text).getD [] := by
  rw [← PyShow.digits_eq]
  unfold report
  cases parseControl p <;> simp [List.append_assoc]

/-- C106: two packets that leave the same text on the console are the same. -/
theorem C106_report (p q : Bytes) (h : report p = report q) : p = q := PyShow.report_inj h

example : report [0x61, 2, 0, 0, 7, 0, 0, 0, 2, 0] = ("\rReceived UCI packet [10]:\n  61 02 00 00 07 00 00 00 02 00\n" ++
    "SessionStatusNtf\n├── gid           = GroupId::SESSION_CONFIG (0x1)\n├── mt            = MessageType::NOTIFICATION (0x3)\n" ++
    "├── oid           = SessionConfigOpcodeId::STATUS (0x2)\n├── session_token = 7 (0x7)\n" ++
    "├── session_state = SessionState::SESSION_STATE_ACTIVE (0x2)\n└── reason_code   = 0 (0x0)\n").toList := by decide +kernel

/-- A packet of a group that does not exist leaves its bytes only. -/
example : report [0x44, 0, 0, 0] = "\rReceived UCI packet [4]:\n  44 00 00 00\n".toList := by decide +kernel

end Pica.Props

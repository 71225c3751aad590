import Verif.Spec.Conversation
import Verif.Props.Answers
import Verif.Props.PyUci
/-! C111: a Python host and the emulator from end to end. -/

namespace Pica.Props
open Spec System Py

/-- To a host that sends nothing but commands, nothing is sent but responses, notifications and data. -/
theorem rsp_run {ls : List Label} {s : System} (h : Nat) (hr : Run .new ls s) (hc : ∀ b ∈ heard h ls, ∃ c, IsCmd b c) :
    ∀ p ∈ ls.flatMap (sentTo h), response p ≠ none → ∃ r, p = .rsp r := by
  generalize hn : System.new = n at hr
  induction hr with
  | nil => intro p hp; cases hp
  | @step t u ls l hr _ hst ih =>
    subst hn
    have hsplit : heard h (ls ++ [l]) = heard h ls ++ heard h [l] := by unfold heard; rw [List.filterMap_append]
    rw [hsplit] at hc
    intro p hp hne
    rw [List.flatMap_append, List.mem_append] at hp
    rcases hp with hp | hp
    · exact ih (fun b hb => hc b (List.mem_append_left _ hb)) p hp hne
    rw [List.flatMap_cons, List.flatMap_nil, List.append_nil] at hp
    cases hst with
    | @notifies k n _ =>
      change p ∈ (if k = h then [Packet.ntf n] else []) at hp
      split at hp
      · cases List.mem_singleton.mp hp
        exact absurd (response_ntf n) hne
      · cases hp
    | @process estimate c q p' out hq hstep =>
      change p ∈ Spec.sentTo h out at hp
      by_cases hcc : ∃ bytes, c = .uciPacket h bytes
      · obtain ⟨bytes, rfl⟩ := hcc
        obtain ⟨c, hcmd⟩ := hc bytes (List.mem_append_right _ (by simp [heard]))
        have hd := ((present_run hr).pkt [] q h bytes hq).1
        cases hg : t.pica.devices.get? h with
        | none => exact absurd hg hd
        | some d =>
          rw [uci_step hg] at hstep
          cases hrecv : d.receivePacket (t.env estimate).tid bytes with
          | error x => rw [hrecv] at hstep; cases hstep
          | ok r =>
            obtain ⟨d', o, e⟩ := r
            rw [hrecv] at hstep
            cases hstep
            have ho : o = some p := by
              unfold Spec.sentTo at hp
              rw [List.filterMap_append] at hp
              have h3 := sentTo_effects h h e
              unfold Spec.sentTo at h3
              rw [h3, List.append_nil] at hp
              cases o with
              | none => simp at hp
              | some r =>
                have hp : p = r := by simpa using hp
                rw [hp]
            subst ho
            by_cases hrd : Ready d c
            · rw [receive_cmd hrd hcmd] at hrecv
              cases hx : d.exec (t.env estimate).tid c with
              | error x => rw [hx] at hrecv; cases hrecv
              | ok y =>
                obtain ⟨d₁, r₁, e₁⟩ := y
                rw [hx] at hrecv
                simp only [finish, Device.sending] at hrecv
                split at hrecv
                · cases hrecv; exact ⟨r₁, rfl⟩
                · cases hrecv
            · refine absurd ?_ hne
              have h1 := (recv_answer hrecv).1
              rw [Option.bind_some] at h1
              rw [h1]
              obtain ⟨hr1, hr2⟩ := not_or.mp hrd
              obtain ⟨hfit, b₀, b₁, r₂, r₃, rfl, h0, h2, h3⟩ := hcmd
              refine if_neg ?_
              rintro (h4 | ⟨-, h4 | h4 | h4⟩)
              · omega
              · exact hr1 h4
              · rw [h2] at h4; revert h4; cases c <;> (simp only [cmdCode]; decide)
              · exact hr2 ((isCmd_reset ⟨hfit, b₀, b₁, r₂, r₃, rfl, h0, h2, h3⟩).mp h4)
      · have := step_quiet hstep h fun b e => hcc ⟨b, e⟩
        rw [List.filterMap_eq_nil_iff] at this
        exact absurd (this p hp) hne
    | _ => cases hp

theorem due_cmd {b : Bytes} {c : Cmd} (hc : IsCmd b c) (ready : Bool) :
    dueTo ready b = if ready = true ∨ resets b = true then some ((cmdCode c).1.toNat, (cmdCode c).2.toNat) else none := by
  obtain ⟨-, b₀, b₁, r₂, r₃, rfl, h0, h2, h3⟩ := hc
  have hg : b₀.toNat % 16 ∉ reservedGroups := by rw [h2]; cases c <;> (simp only [cmdCode]; decide)
  unfold dueTo
  rw [h2] at hg
  simp only [h0, h2, h3, hg, false_or, true_and, show ¬ (4 ≤ 1) by decide]

theorem due_ready {bs : List Bytes} {cs : List Cmd} (h : List.Forall₂ IsCmd bs cs) :
    due true bs = cs.map fun c => ((cmdCode c).1.toNat, (cmdCode c).2.toNat) := by
  induction h with
  | nil => rfl
  | @cons b c _ _ hc _ ih =>
    unfold due
    rw [due_cmd hc, if_pos (.inl rfl), Bool.true_or, ih]
    rfl

theorem due_fromReset {bs : List Bytes} {cs : List Cmd} (h : List.Forall₂ IsCmd bs cs) :
    due false bs = (fromReset cs).map fun c => ((cmdCode c).1.toNat, (cmdCode c).2.toNat) := by
  induction h with
  | nil => rfl
  | @cons b c bs cs hc hcs ih =>
    have hb : resets b = true ↔ ∃ rc, c = .coreDeviceReset rc := by
      obtain ⟨hfit, b₀, b₁, r₂, r₃, rfl, h0, h2, h3⟩ := hc
      exact isCmd_reset ⟨hfit, b₀, b₁, r₂, r₃, rfl, h0, h2, h3⟩
    unfold due
    rw [due_cmd hc, Bool.false_or]
    by_cases hx : ∃ rc, c = .coreDeviceReset rc
    · rw [hb.mpr hx, if_pos (.inr rfl), due_ready hcs]
      obtain ⟨rc, rfl⟩ := hx
      rfl
    · have hx' : resets b = false := by rw [← Bool.not_eq_true]; exact fun e => hx (hb.mp e)
      rw [hx', if_neg (by simp), ih]
      have : fromReset (c :: cs) = fromReset cs := by
        unfold fromReset
        rw [List.dropWhile_cons_of_pos]
        cases c <;> first | rfl | exact absurd ⟨_, rfl⟩ hx
      rw [this]
      rfl

theorem reads_fulfils {b : Bytes} {r : Rsp} {c : Cmd} (h : PyReads b (.rsp r)) (hc : rspCode r = cmdCode c) :
    ∃ o, parseControl b = some o ∧ Fulfils (pyCmd c) o := by
  cases r <;> cases c <;> first
    | (exfalso; revert hc; simp only [rspCode, cmdCode]; decide)
    | exact ⟨_, h, trivial⟩
    | exact ⟨_, h, rfl, rfl⟩

theorem code_rsp (r : Rsp) (q : Bytes) :
    responseCode (controlBytes 2 (rspCode r) q) = some ((rspCode r).1.toNat, (rspCode r).2.toNat) := by
  have h1 : (2 * 32 + (rspCode r).1).toNat / 32 = 2 ∧ (2 * 32 + (rspCode r).1).toNat % 16 = (rspCode r).1.toNat ∧
      (rspCode r).2.toNat % 64 = (rspCode r).2.toNat := by cases r <;> (simp only [rspCode]; decide)
  show (if _ then _ else _) = _
  rw [if_pos h1.1, h1.2.1, h1.2.2]

theorem fromReset_prefix {a b : List Cmd} (h : a <+: b) : fromReset a <+: fromReset b := by
  obtain ⟨t, rfl⟩ := h
  induction a with
  | nil => exact List.nil_prefix
  | cons c a ih =>
    unfold fromReset at ih ⊢
    rw [List.cons_append, List.dropWhile_cons, List.dropWhile_cons]
    cases c <;> first | exact ih | exact List.prefix_append _ t

/-- C111: a Python host sends commands. In every schedule, whatever part of what was sent to it it has read, the responses it
has read are objects of the classes of the responses to its commands from the first reset on, in the order of the commands;
and to all of them, once they have all been processed and everything has been read. -/
theorem C111_conversation (ls : List Label) (s : System) (hr : Run .new ls s) (h : Nat) (cs : List Cmd)
    (hcs : ∀ c ∈ cs, cmdFits c ∧ (cmdPayload c).length ≤ 255) (bss : List Bytes)
    (hb : List.Forall₂ (fun c bs => (pyCmd c).serialize.bind Host.sendControl = some bs) cs bss)
    (hm : received h ls <+: (reassemble none (readStream bss.flatten)).1) (ps : List Packet)
    (hps : ps <+: ls.flatMap (sentTo h)) :
    ∃ fss : List (List Bytes),
      List.Forall₂ (fun p fs => ∃ b, p.encode = some b ∧ segment b = .ok fs) ps fss ∧
      ∀ fuel, ps.length ≤ fuel → ∃ pre, pre <+: fromReset cs ∧
        List.Forall₂ (fun c b => ∃ o, parseControl b = some o ∧ Fulfils (pyCmd c) o) pre
          (responses (Host.readPackets fuel fss.flatten.flatten)) ∧
        (s.stopped = false → s.queue = [] → received h ls = (reassemble none (readStream bss.flatten)).1 →
          ps = ls.flatMap (sentTo h) → pre = fromReset cs) := by
  obtain ⟨bss', msgs, b1, b2, b3⟩ := C70_received cs hcs
  have hbs : bss' = bss := by
    clear b2 hm hcs b3
    induction hb generalizing bss' with
    | nil => cases b1; rfl
    | cons hx _ ih =>
      cases b1 with
      | cons hy b1 =>
        rw [hx] at hy
        cases hy
        rw [ih _ b1]
  subst hbs
  rw [b2] at hm ⊢
  dsimp only at hm ⊢
  obtain ⟨a1, a2⟩ := C74_answers ls s hr h
  obtain ⟨n, hn⟩ : ∃ n, heard h ls = msgs.take n := ⟨_, (List.prefix_iff_eq_take.mp (a2.trans hm))⟩
  have hcmds : List.Forall₂ IsCmd (heard h ls) (cs.take n) := by
    rw [hn]
    exact List.forall₂_take n b3
  have hrsp := rsp_run h hr fun b hb => by
    obtain ⟨i, hi, rfl⟩ := List.getElem_of_mem hb
    exact ⟨_, hcmds.get hi (by rw [← hcmds.length_eq]; exact hi)⟩
  rw [due_fromReset hcmds] at a1
  obtain ⟨fss, f1, f2⟩ := C71_schedule_partial ls s hr h ps hps
  obtain ⟨fss', f1', f3⟩ := delivery ls s hr h ps hps
  have hfs : fss' = fss := by
    clear f2 f3 hps
    induction f1 generalizing fss' with
    | nil => cases f1'; rfl
    | cons hx _ ih =>
      cases f1' with
      | cons hy f1' =>
        obtain ⟨x, e1, e2⟩ := hx
        obtain ⟨y, e3, e4⟩ := hy
        rw [e1] at e3
        cases e3
        rw [e2] at e4
        cases e4
        rw [ih _ f1']
  subst hfs
  refine ⟨fss', f1, fun fuel hf => ?_⟩
  have hpre : ps.filterMap response <+: (fromReset (cs.take n)).map fun c => ((cmdCode c).1.toNat, (cmdCode c).2.toNat) := by
    rw [← a1]
    exact hps.filterMap _
  obtain ⟨pre, e1, e2⟩ : ∃ pre, pre <+: fromReset (cs.take n) ∧
      ps.filterMap response = pre.map fun c => ((cmdCode c).1.toNat, (cmdCode c).2.toNat) := by
    refine ⟨(fromReset (cs.take n)).take (ps.filterMap response).length, List.take_prefix _ _, ?_⟩
    rw [List.map_take]
    exact List.prefix_iff_eq_take.mp hpre
  refine ⟨pre, e1.trans (fromReset_prefix (List.take_prefix _ _)), ?_, fun hs hq hall hpall => ?_⟩
  · have hx := (f2 fuel hf)
    have hy := (f3 fuel hf)
    have hz : ∀ p ∈ ps, response p ≠ none → ∃ r, p = .rsp r := fun p hp => hrsp p (hps.subset hp)
    clear f1 f1' f2 f3 hps hpre e1 hf
    generalize Host.readPackets fuel fss'.flatten.flatten = bs at hx hy
    induction hx generalizing pre with
    | nil =>
      rw [List.filterMap_nil, eq_comm, List.map_eq_nil_iff] at e2
      subst e2
      exact .nil
    | @cons b p bs ps hx _ ih =>
      cases hy with
      | cons hy hys =>
      obtain ⟨-, -, m, m', e3, rfl, e4, -⟩ := hy
      have hcode : responseCode m'.bytes = response p := by
        unfold response
        rw [e3]
        exact code_same e4
      have hmt : response p ≠ none ↔ (m'.bytes.headD 0).toNat / 32 = 2 := by
        rw [← hcode]
        unfold responseCode Msg.bytes
        simp
      cases hp : response p with
      | none =>
        rw [List.filterMap_cons, hp] at e2
        have : responses (m'.bytes :: bs) = responses bs := by
          unfold responses
          rw [List.filter_cons_of_neg]
          simpa using fun e => hmt.mpr e hp
        rw [this]
        exact ih pre e2 (fun p hp => hz p (List.mem_cons_of_mem _ hp)) hys
      | some k =>
        have hne : response p ≠ none := by rw [hp]; simp
        rw [List.filterMap_cons, hp] at e2
        have : responses (m'.bytes :: bs) = m'.bytes :: responses bs := by
          unfold responses
          rw [List.filter_cons_of_pos]
          simpa using hmt.mp hne
        rw [this]
        cases pre with
        | nil => cases e2
        | cons c pre =>
          dsimp only at e2
          rw [List.map_cons, List.cons.injEq] at e2
          refine .cons ?_ (ih pre e2.2 (fun p hp => hz p (List.mem_cons_of_mem _ hp)) hys)
          obtain ⟨r, rfl⟩ := hz p List.mem_cons_self hne
          refine reads_fulfils hx ?_
          have hk := e2.1
          unfold response at hp
          rw [e3] at hp
          obtain ⟨-, e5⟩ := (C48_rsp_bytes r _).mp e3
          rw [Option.bind_some, e5] at hp
          have : responseCode (controlBytes 2 (rspCode r) (rspPayload r)) =
              some ((rspCode r).1.toNat, (rspCode r).2.toNat) := code_rsp r _
          rw [this] at hp
          cases hp
          rw [Prod.mk.injEq] at hk
          exact Prod.ext (UInt8.toNat.inj hk.1) (UInt8.toNat.inj hk.2)
  · rw [hpall, a1] at e2
    have hh := C74_complete ls s hr hs h hq
    rw [hall, hn] at hh
    have hl := e1.eq_of_length (by simpa using (congrArg List.length e2).symm)
    rw [hl, List.take_of_length_le]
    rw [← b3.length_eq]
    have := congrArg List.length hh
    rw [List.length_take] at this
    omega

/-- A command before the reset, the reset, and two more, as the host writes them. -/
private def talk : List Cmd := [.coreGetDeviceInfo, .coreDeviceReset .uwbsReset, .sessionInit 7 .firaRangingSession, .sessionGetCount]

private def talkBytes : List Bytes := [Ex.cmd 0 2 [], Ex.reset, Ex.sessionInit 7 0, Ex.cmd 1 5 []]

/-- They are sent as the theorem wants it, everything is processed, and three responses are read. -/
example : (∀ c ∈ talk, cmdFits c ∧ (cmdPayload c).length ≤ 255) ∧
    talk.map (fun c => (pyCmd c).serialize.bind Host.sendControl) = talkBytes.map some ∧ (fromReset talk).length = 3 ∧
    ∃ ls s, Run .new ls s ∧ (decide (received 0 ls = (reassemble none (readStream talkBytes.flatten)).1) &&
      decide (s.queue = [] ∧ s.stopped = false) &&
      decide ((ls.flatMap (sentTo 0)).filterMap response = [(0, 0), (1, 0), (1, 5)])) = true := by
  refine ⟨?_, by decide +kernel, rfl, Ex.exists_sched (as := [.request .connect, .process] ++ talkBytes.flatMap (Ex.send 0)) (by
    decide +kernel)⟩
  intro c hc
  simp only [talk, List.mem_cons, List.not_mem_nil, or_false] at hc
  rcases hc with rfl | rfl | rfl | rfl <;> exact ⟨trivial, by decide⟩

end Pica.Props

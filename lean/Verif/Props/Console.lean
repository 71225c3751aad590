import Verif.Model.Console
import Verif.Spec.Console
import Verif.Props.PyUci
import Verif.Props.Queries
import Verif.Props.Ranging
import Verif.Props.Reset
/-! C72: files sent by the console. -/

namespace Pica.Props
open Spec Py Console

theorem fromBytes_eq (bs : Bytes) : fromBytes bs = bigEndian bs := by
  unfold fromBytes bigEndian
  induction bs using List.reverseRecOn with
  | nil => rfl
  | append_singleton l b ih =>
    rw [List.reverse_append, List.foldl_append, ← ih]
    show b.toNat + 256 * ofLe l.reverse = _
    simp only [List.foldl_cons, List.foldl_nil]
    omega

/-- The `i`th part of a file. -/
def part (sid : UInt32) (dst : UInt64) (file : Bytes) (i : Nat) : DataMessageSnd :=
  ⟨sid, dst, UInt16.ofNat (i % 65535), (file.drop (i * 1024)).take 1024⟩

def partMsg (sid : UInt32) (dst : UInt64) (file : Bytes) (i : Nat) : Msg :=
  ⟨if file.length ≤ i * 1024 + 1024 then 1 else 17, 0, 0, 0, u32le sid ++ (u64le dst ++ (u16le (UInt16.ofNat (i % 65535)) ++
    (leBytes 2 ((file.drop (i * 1024)).take 1024).length ++ (file.drop (i * 1024)).take 1024)))⟩

theorem sendSection_eq (sid : UInt32) (dst : UInt64) (file : Bytes) (i : Nat) :
    sendSection sid.toNat dst.toNat (i % 65535) (if file.length ≤ i * 1024 + 1024 then 0 else 1) ((file.drop (i * 1024)).take 1024) =
      Host.sendData (partMsg sid dst file i).bytes := by
  unfold sendSection serializeData
  rw [if_neg (by simp only [List.length_take]; omega)]
  have e : int 2 (i % 65535) = u16le (UInt16.ofNat (i % 65535)) := by
    rw [← py_int2, UInt16.toNat_ofNat_of_lt' (by show _ < 65536; omega)]
  rw [Option.bind_some, py_int4, py_int8, e]
  congr 1
  unfold partMsg Msg.bytes
  split <;> simp

theorem transferLoop_eq (sid : UInt32) (dst : UInt64) (file : Bytes) (n k : Nat) :
    transferLoop sid.toNat dst.toNat file ((List.range' k n).map (· * 1024)) (k % 65535) =
      (List.range' k n).mapM fun i => Host.sendData (partMsg sid dst file i).bytes := by
  induction n generalizing k with
  | zero => rfl
  | succ n ih =>
    rw [List.range'_succ, List.map_cons, transferLoop, List.mapM_cons]
    have e : (if 65535 ≤ k % 65535 + 1 then 0 else k % 65535 + 1) = (k + 1) % 65535 := by split <;> omega
    dsimp only
    rw [e, ih, show Console.maxDataPayload = 1024 from rfl, sendSection_eq]

theorem dataTransfer_eq (sid : UInt32) (dst : UInt64) (mac file : Bytes) (hm : bigEndian mac = dst.toNat) :
    dataTransfer mac file sid.toNat = (List.range (max 1 ((file.length + 1023) / 1024))).mapM fun i =>
      Host.sendData (partMsg sid dst file i).bytes := by
  unfold dataTransfer
  dsimp only
  rw [fromBytes_eq, hm, show Console.maxDataPayload = 1024 from rfl]
  split
  · rw [List.range_eq_range', List.range_eq_range', show (max 1 ((file.length + 1023) / 1024)) =
      (file.length + (1024 - 1)) / 1024 by omega]
    exact transferLoop_eq sid dst file _ 0
  · have h1 : max 1 ((file.length + 1023) / 1024) = 1 := by omega
    have h2 := sendSection_eq sid dst file 0
    rw [if_pos (by omega), Nat.zero_mul, List.drop_zero, List.take_of_length_le (by omega)] at h2
    rw [h1, show List.range 1 = [0] from rfl, List.mapM_cons, List.mapM_nil, ← h2]
    rfl

theorem mapM_forall₂ {α : Type} {f : α → Option Bytes} {l : List α} {bs : List Bytes}
    (h : List.Forall₂ (fun a b => f a = some b) l bs) : l.mapM f = some bs := by
  induction h with
  | nil => rfl
  | cons h1 _ ih => rw [List.mapM_cons, h1, ih]; rfl

theorem flatten_parts (file : Bytes) (n k : Nat) (h : file.length ≤ (k + n) * 1024) :
    ((List.range' k n).map fun i => (file.drop (i * 1024)).take 1024).flatten = file.drop (k * 1024) := by
  induction n generalizing k with
  | zero => rw [List.drop_of_length_le (by simpa using h)]; rfl
  | succ n ih =>
    rw [List.range'_succ, List.map_cons, List.flatten_cons, ih (k + 1) (by rw [show k + 1 + n = k + (n + 1) by omega]; exact h),
      show (k + 1) * 1024 = k * 1024 + 1024 by omega, ← List.drop_drop, List.take_append_drop]

theorem transfers_parts (sid : UInt32) (dst : UInt64) (file : Bytes) :
    Transfers sid dst.toNat file ((List.range (max 1 ((file.length + 1023) / 1024))).map (part sid dst file)) where
  target m hm := by obtain ⟨i, -, rfl⟩ := List.mem_map.mp hm; exact ⟨rfl, rfl⟩
  contents := by
    rw [List.map_map, List.range_eq_range']
    have := flatten_parts file (max 1 ((file.length + 1023) / 1024)) 0 (by omega)
    rwa [Nat.zero_mul, List.drop_zero] at this
  some := by
    have : 1 ≤ max 1 ((file.length + 1023) / 1024) := by omega
    intro e
    have := congrArg List.length e
    simp at this
  sizes i h := by
    simp only [List.getElem_map, List.getElem_range, part, List.length_take, List.length_drop, List.length_map, List.length_range]
    omega
  numbers i h := by
    simp only [List.getElem_map, List.getElem_range, part]
    rw [UInt16.toNat_ofNat_of_lt' (by show _ < 65536; omega)]

theorem bigEndian_lt (bs : Bytes) : bigEndian bs < 256 ^ bs.length := by
  unfold bigEndian
  induction bs using List.reverseRecOn with
  | nil => simp
  | append_singleton l b ih =>
    rw [List.foldl_append, List.length_append, List.length_singleton, Nat.pow_succ]
    simp only [List.foldl_cons, List.foldl_nil]
    have := b.toNat_lt
    omega

/-- C72: the console sends any file, in parts, and the emulator gets the parts. -/
theorem C72_sent (mac file : Bytes) (sid : UInt32) (hm : mac.length ≤ 8) :
    ∃ bss msgs : List Bytes, ∃ ms : List DataMessageSnd, dataTransfer mac file sid.toNat = some bss ∧
      Transfers sid (bigEndian mac) file ms ∧
      reassemble none (readStream bss.flatten) = (msgs, .closed) ∧ List.Forall₂ IsDataSnd msgs ms := by
  have hlt : bigEndian mac < 2 ^ 64 := Nat.lt_of_lt_of_le (bigEndian_lt mac)
    (by rw [show (2 : Nat) ^ 64 = 256 ^ 8 by norm_num]; exact Nat.pow_le_pow_right (by decide) hm)
  have hd : bigEndian mac = (UInt64.ofNat (bigEndian mac)).toNat := (UInt64.toNat_ofNat_of_lt' hlt).symm
  generalize UInt64.ofNat (bigEndian mac) = dst at hd
  obtain ⟨bss, ms', h1, h2, h3⟩ := C64_messages
    ((List.range (max 1 ((file.length + 1023) / 1024))).map (partMsg sid dst file)) (by
      intro m hm
      obtain ⟨i, -, rfl⟩ := List.mem_map.mp hm
      refine .inl ⟨?_, ?_⟩
      · unfold partMsg Msg.mt; dsimp only; split <;> decide
      · simp only [partMsg, List.length_append, List.length_take, u32le, u64le, u16le, length_leBytes]; omega)
  refine ⟨bss, ms'.map Msg.bytes, _, ?_, hd ▸ transfers_parts sid dst file, h3, ?_⟩
  · rw [dataTransfer_eq sid dst mac file hd]
    refine mapM_forall₂ ?_
    rw [List.forall₂_map_left_iff] at h1
    refine h1.imp fun i b h => ?_
    rwa [if_pos (by unfold partMsg Msg.mt; dsimp only; split <;> decide)] at h
  · rw [List.forall₂_map_left_iff, List.forall₂_map_right_iff]
    rw [List.forall₂_map_right_iff] at h2
    refine h2.imp fun m i h => ?_
    obtain ⟨h4, h5, -, -, h6⟩ := h
    refine ⟨by simp only [part, List.length_take]; omega, m.h₀, m.h₁, m.h₂, m.h₃, ?_, ?_, ?_⟩
    · unfold Msg.bytes; rw [h6]; rfl
    · have : (partMsg sid dst file i).mt = 0 := by unfold partMsg Msg.mt; dsimp only; split <;> decide
      rw [← this, ← h4]; rfl
    · have : (partMsg sid dst file i).low = 1 := by unfold partMsg Msg.low; dsimp only; split <;> decide
      rw [← this, ← h5]; rfl

theorem insert_twice {K V : Type} [DecidableEq K] (m : AMap K V) (k : K) (v w : V) : (m.insert k v).insert k w = m.insert k w := by
  induction m with
  | nil => simp [AMap.insert]
  | cons e m ih =>
    obtain ⟨k', v'⟩ := e
    by_cases h : k' = k
    · simp [AMap.insert, h]
    · simp [AMap.insert, h, ih]

theorem run_append {p q r : Pica} {tr tr' : List Pica.Event} (h : Pica.Run p tr q) (h' : Pica.Run q tr' r) :
    Pica.Run p (tr ++ tr') r := by
  induction h' with
  | nil => rwa [List.append_nil]
  | cmd _ hs ih => rw [← List.append_assoc]; exact .cmd ih hs
  | reorder _ hr ih => exact .reorder ih hr

/-- The state after a host gave a session more to send. -/
def giveData (p : Pica) (h : Nat) (d : Device) (sid : UInt32) (s : Session) (data : Bytes) : Pica :=
  { p with devices := p.devices.insert h { d with sessions := d.sessions.insert sid { s with data := s.data ++ data } } }

/-- C72: the parts of a file for a data session are queued in order, each with a credit notification, and nothing else
happens. -/
theorem C72_queued (p : Pica) (hp : p.Reachable) (h : Nat) (d : Device) (sid : UInt32) (s : Session) (dst : Nat) (file : Bytes)
    (ms : List DataMessageSnd) (cmds : List (Env × Bytes)) (hd : p.devices.get? h = some d) (hs : d.sessions.get? sid = some s)
    (ht : s.sessionType = .firaRangingAndInBandDataSession) (hm : Transfers sid dst file ms)
    (hc : List.Forall₂ (fun c m => IsDataSnd c.2 m) cmds ms) :
    Pica.Run p (cmds.map fun c => ⟨c.1, .uciPacket h c.2, [.send h (.ntf (.sessionDataCredit sid .creditAvailable))]⟩)
      (giveData p h d sid s file) := by
  have key : ∀ (l : List (Env × Bytes)) (ns : List DataMessageSnd), (∀ m ∈ ns, m.sessionHandle = sid) →
      List.Forall₂ (fun c m => IsDataSnd c.2 m) l ns →
      Pica.Run p (l.map fun c => ⟨c.1, .uciPacket h c.2, [.send h (.ntf (.sessionDataCredit sid .creditAvailable))]⟩)
        (giveData p h d sid s (ns.map (·.applicationData)).flatten) := by
    intro l
    induction l using List.reverseRecOn with
    | nil =>
      intro ns _ hf
      cases hf
      have : giveData p h d sid s [] = p := by
        unfold giveData
        rw [List.append_nil, AMap.insert_self hs, AMap.insert_self hd]
      show Pica.Run p [] (giveData p h d sid s [])
      rw [this]
      exact .nil
    | append_singleton l c ih =>
      intro ns hn hf
      obtain ⟨ns, m, rfl, hf, hm⟩ : ∃ ns' m, ns = ns' ++ [m] ∧ List.Forall₂ (fun c m => IsDataSnd c.2 m) l ns' ∧
          IsDataSnd c.2 m := by
        have hl := hf.length_eq
        rcases List.eq_nil_or_concat ns with rfl | ⟨ns', m, rfl⟩
        · simp at hl
        · rw [List.concat_eq_append] at hf hl ⊢
          simp only [List.length_append, List.length_singleton] at hl
          have h1 := List.forall₂_take l.length hf
          have h2 := List.forall₂_drop l.length hf
          rw [List.take_left, List.take_left' (by omega)] at h1
          rw [List.drop_left, List.drop_left' (by omega)] at h2
          cases h2 with
          | cons h2 _ => exact ⟨ns', m, rfl, h1, h2⟩
      have hr := ih ns (fun m hm => hn m (List.mem_append_left _ hm)) hf
      rw [List.map_append]
      refine .cmd hr ?_
      have hreach : (giveData p h d sid s (ns.map (·.applicationData)).flatten).Reachable := by
        obtain ⟨tr, ht⟩ := hp
        exact ⟨_, run_append ht hr⟩
      have hh : m.sessionHandle = sid := hn m (by simp)
      have := C65_accepted _ c.1 h _ c.2 m { s with data := s.data ++ (ns.map (·.applicationData)).flatten } hreach
        (AMap.get?_insert_self ..) hm (by rw [hh]; exact AMap.get?_insert_self ..) ht
      unfold AnswersTo at this
      rw [this]
      subst hh
      unfold giveData
      simp only [fun (k : Nat) (v w : Device) => insert_twice p.devices k v w,
        fun (k : UInt32) (v w : Session) => insert_twice d.sessions k v w, List.map_append, List.flatten_append, List.append_assoc, List.map_cons, List.map_nil,
        List.flatten_cons, List.flatten_nil, List.append_nil]
  have := key cmds ms (fun m hm' => (hm.target m hm').1) hc
  rwa [hm.contents] at this

theorem reach_giveData {p : Pica} (hp : p.Reachable) {h : Nat} {d : Device} {sid : UInt32} {s : Session} (file : Bytes)
    (hd : p.devices.get? h = some d) (hs : d.sessions.get? sid = some s)
    (ht : s.sessionType = .firaRangingAndInBandDataSession) : (giveData p h d sid s file).Reachable := by
  obtain ⟨-, msgs, ms, -, h2, -, h4⟩ := C72_sent [] file sid (by decide)
  obtain ⟨tr, hr⟩ := hp
  have := C72_queued p ⟨tr, hr⟩ h d sid s _ file ms (msgs.map fun b => (Ex.env, b)) hd hs ht h2
    (by rw [List.forall₂_map_left_iff]; exact h4)
  exact ⟨_, run_append hr this⟩

/-- C72, in part: a file the console sends to an ACTIVE session of an initiator with nothing queued is, if the next round
completes, delivered whole and once to every peer that gets data in this round. -/
theorem C72_arrives_partial (p : Pica) (hp : p.Reachable) (h : Nat) (d : Device) (sid : UInt32) (s : Session) (mac file : Bytes)
    (hm : mac.length ≤ 8) (hd : p.devices.get? h = some d) (hs : d.sessions.get? sid = some s)
    (ht : s.sessionType = .firaRangingAndInBandDataSession) (hq : s.data = []) :
    ∃ bss msgs : List Bytes, dataTransfer mac file sid.toNat = some bss ∧
      reassemble none (readStream bss.flatten) = (msgs, .closed) ∧
      ∀ cmds : List (Env × Bytes), cmds.map Prod.snd = msgs → ∃ p' tr, Pica.Run p tr p' ∧
        tr.map (fun e => (e.env, e.command)) = cmds.map (fun c => (c.1, .uciPacket h c.2)) ∧
        (∀ e ∈ tr, e.out = [.send h (.ntf (.sessionDataCredit sid .creditAvailable))]) ∧
        ∀ env p'' out, p'.step env (.ranging h sid) = .ok (p'', out) →
          ∀ k q, p.devices.get? k = some q → Gets h sid s k q → ¬Unseen env.estimate h sid s k q →
            ∃ m, s.appConfig.deviceMacAddress = some m ∧ Spec.sentTo k out = [.data ⟨sid, .ok, m.toU64, 1, file⟩] := by
  obtain ⟨bss, msgs, ms, h1, h2, h3, h4⟩ := C72_sent mac file sid hm
  refine ⟨bss, msgs, h1, h3, fun cmds hc => ?_⟩
  subst hc
  rw [List.forall₂_map_left_iff] at h4
  have hr := C72_queued p hp h d sid s _ file ms cmds hd hs ht h2 h4
  refine ⟨_, _, hr, by simp, ?_, fun env p'' out hstep k q hk hg hu => ?_⟩
  · intro e he
    obtain ⟨c, -, rfl⟩ := List.mem_map.mp he
    rfl
  · have hreach := reach_giveData hp file hd hs ht
    obtain ⟨h5, -⟩ := C36_round_partial _ p'' hreach env h _ sid { s with data := s.data ++ file } out
      (AMap.get?_insert_self ..) (AMap.get?_insert_self ..) hstep
    have h6 := h5 k hg.1
    rw [if_pos ⟨q, by rw [← hk]; exact AMap.get?_insert_of_ne hg.1, hg, hu⟩] at h6
    simpa only [hq, List.nil_append] using h6

/-- C72 is false of longer files: if there is a peer that gets them the emulator stops. -/
theorem C72_long_false (p : Pica) (hp : p.Reachable) (h : Nat) (d : Device) (sid : UInt32) (s : Session) (file : Bytes)
    (hd : p.devices.get? h = some d) (hs : d.sessions.get? sid = some s)
    (ht : s.sessionType = .firaRangingAndInBandDataSession) (hl : 65535 < file.length) (env : Env) (k : Nat) (q : Device)
    (hk : p.devices.get? k = some q) (hg : Gets h sid s k q) (hu : ¬Unseen env.estimate h sid s k q) :
    ¬ ∃ x, (giveData p h d sid s file).step env (.ranging h sid) = .ok x := by
  intro hx
  have := (C57_round_survives _ (reach_giveData hp file hd hs ht) env h _ sid { s with data := s.data ++ file }
    (AMap.get?_insert_self ..) (AMap.get?_insert_self ..)).mp hx
  have := (this.2.1 k q (by rw [← hk]; exact AMap.get?_insert_of_ne hg.1) hg hu).2
  simp only [List.length_append] at this
  omega

/-- Two devices in an ACTIVE data session: the hypotheses of `C72_arrives_partial` and `C72_long_false` can be met. -/
example : ∃ (p : Pica) (d q : Device) (s : Session), p.Reachable ∧ p.devices.get? 0 = some d ∧ d.sessions.get? 7 = some s ∧
    s.sessionType = .firaRangingAndInBandDataSession ∧ s.data = [] ∧ p.devices.get? 1 = some q ∧ Gets 0 7 s 1 q ∧
    ¬ Unseen Ex.env.estimate 0 7 s 1 q := by
  obtain ⟨d, s, hd, hs, ho⟩ := Ex.find (p := Ex.after Ex.twoActive) (h := 0) (sid := 7)
    (f := fun _ s => (s.data, decide (Exchanges s .initiator))) (b := ([], true)) (by decide +kernel)
  obtain ⟨q, t, hq, ht, ho'⟩ := Ex.find (p := Ex.after Ex.twoActive) (h := 1) (sid := 7)
    (f := fun _ s => decide (Exchanges s .responder)) (b := true) (by decide +kernel)
  have h1 : Exchanges s .initiator := of_decide_eq_true (congrArg Prod.snd ho)
  refine ⟨_, d, q, s, Ex.after_reachable _ (by decide +kernel), hd, hs, h1.2.1, congrArg Prod.fst ho, hq,
    ⟨by decide, h1, t, ht, of_decide_eq_true ho'⟩, ?_⟩
  rintro ⟨_, -, -, -, h⟩
  revert h
  decide

/-- A file of 1025 bytes takes two packets, the first one announcing another. -/
example : ((dataTransfer [0x12, 0x34] (List.replicate 1025 9) 7).map (List.map fun b => b.take 20)) =
    some [[0x11, 0, 0x10, 0x04, 7, 0, 0, 0, 0x34, 0x12, 0, 0, 0, 0, 0, 0, 0, 0, 0, 4],
      [0x01, 0, 0x11, 0x00, 7, 0, 0, 0, 0x34, 0x12, 0, 0, 0, 0, 0, 0, 1, 0, 1, 0]] := by decide +kernel

/-! ### C73 -/

theorem line_command (l : Line) (hr : Line.InRange l) (hb : ¬LineBroken l) :
    l.command = some (pyCmd (lineMeans l)) ∧ cmdFits (lineMeans l) ∧ (cmdPayload (lineMeans l)).length ≤ 255 := by
  have nat32 : ∀ n, n < 2 ^ 32 → (UInt32.ofNat n).toNat = n := fun n h => by
    rw [UInt32.toNat_ofNat']; exact Nat.mod_eq_of_lt h
  cases l with
  | deviceReset => exact absurd trivial hb
  | getDeviceInfo => exact absurd trivial hb
  | getCapsInfo => exact absurd trivial hb
  | setConfig m => exact absurd trivial hb
  | getConfig => exact absurd trivial hb
  | sessionSetAppConfig n r as => exact absurd trivial hb
  | sessionGetCount => exact ⟨rfl, trivial, of_decide_eq_true rfl⟩
  | sessionInit n => exact ⟨by simp only [Line.command, lineMeans, pyCmd, nat32 n hr]; rfl, trivial, of_decide_eq_true rfl⟩
  | sessionDeinit n => exact ⟨by simp only [Line.command, lineMeans, pyCmd, nat32 n hr], trivial, of_decide_eq_true rfl⟩
  | sessionGetAppConfig n =>
    exact ⟨by simp only [Line.command, lineMeans, pyCmd, nat32 n hr]; rfl, ⟨by decide, by decide⟩, of_decide_eq_true rfl⟩
  | sessionGetState n => exact ⟨by simp only [Line.command, lineMeans, pyCmd, nat32 n hr], trivial, of_decide_eq_true rfl⟩
  | rangeStart n => exact ⟨by simp only [Line.command, lineMeans, pyCmd, nat32 n hr], trivial, of_decide_eq_true rfl⟩
  | rangeStop n => exact ⟨by simp only [Line.command, lineMeans, pyCmd, nat32 n hr], trivial, of_decide_eq_true rfl⟩
  | getRangingCount n => exact ⟨by simp only [Line.command, lineMeans, pyCmd, nat32 n hr], trivial, of_decide_eq_true rfl⟩
  | sessionUpdateControllerMulticastList n add mac sub =>
    refine ⟨?_, trivial, of_decide_eq_true rfl⟩
    have h4 : Py.int 4 sub = leBytes 4 sub := by
      unfold Py.int
      rw [if_neg (by have := hr.2.2; omega)]
    have : controlees [(leBytes 2 mac, sub, [])] = some (1 :: (leBytes 2 mac ++ leBytes 4 sub)) := by
      unfold controlees Py.list
      simp [controlee, h4, byte]
    simp only [Line.command, if_pos hr.2.1, Option.bind_eq_bind, Option.bind_some, this, lineMeans, pyCmd, nat32 n hr.1]
    cases add <;> rfl

/-- C73, in part: the emulator receives the commands the console sends, in order, with the meaning of the lines typed, if
none of them is one of the broken six. -/
theorem C73_received_partial (ls : List Line) (h : ∀ l ∈ ls, Line.InRange l ∧ ¬LineBroken l) :
    ∃ bss msgs : List Bytes, List.Forall₂ (fun l bs => l.write = some bs) ls bss ∧
      reassemble none (readStream bss.flatten) = (msgs, .closed) ∧ List.Forall₂ IsCmd msgs (ls.map lineMeans) := by
  obtain ⟨bss, msgs, h1, h2, h3⟩ := C70_received (ls.map lineMeans) (by
    intro c hc
    obtain ⟨l, hl, rfl⟩ := List.mem_map.mp hc
    exact (line_command l (h l hl).1 (h l hl).2).2)
  refine ⟨bss, msgs, ?_, h2, h3⟩
  rw [List.forall₂_map_left_iff] at h1
  clear h2 h3
  induction h1 with
  | nil => exact .nil
  | @cons l b ls bs hx _ ih =>
    refine .cons ?_ (ih fun l hl => h l (List.mem_cons_of_mem _ hl))
    obtain ⟨h1, h2⟩ := h l List.mem_cons_self
    unfold Line.write
    rw [(line_command l h1 h2).1]
    exact hx

/-- C73 is false of six commands, which end the console without sending anything. -/
theorem C73_false (l : Line) (h : LineBroken l) : l.write = none := by
  cases l <;> first | rfl | exact False.elim h

/-- C73: therefore the device of a host that sends only what the console sends is never reset: it answers every command
with an error notification, has no session, and refuses all data. -/
theorem C73_stuck (tr : List Pica.Event) (p : Pica) (hr : Pica.Run .new tr p) (h : Nat) (d : Device)
    (hd : p.devices.get? h = some d)
    (hc : ∀ e ∈ tr, ∀ bytes, e.command = .uciPacket h bytes →
      (∃ l w, l.write = some w ∧ IsCmd bytes (lineMeans l)) ∨ ∃ m, IsDataSnd bytes m) :
    d.isReset = false ∧ d.sessions = [] ∧
      (∀ env bytes l w, l.write = some w → IsCmd bytes (lineMeans l) →
        p.step env (.uciPacket h bytes) = .ok (p, [.send h (.ntf (.coreDeviceStatus .deviceStateError))])) ∧
      ∀ env bytes m, IsDataSnd bytes m → p.step env (.uciPacket h bytes) =
        .ok (p, [.send h (.ntf (.sessionDataTransferStatus m.sessionHandle 0 .uciDataTransferStatusErrorRejected 1))]) := by
  have notReset : ∀ (l : Line) (w : Bytes), l.write = some w → ∀ rc, lineMeans l ≠ .coreDeviceReset rc := by
    intro l w hw rc e
    cases l <;> first | (cases e; done) | cases hw
  have h0 : d.isReset = false := by
    by_contra hn
    obtain ⟨e, he, bytes, rc, hcm, hrc⟩ := C14_needs_reset tr p hr h d hd (by simpa using hn)
    rcases hc e he bytes hcm with ⟨l, w, hw, hl⟩ | ⟨m, hm⟩
    · exact notReset l w hw rc (isCmd_unique hl hrc)
    · obtain ⟨-, b, r₁, r₂, r₃, rfl, h0, h1⟩ := hm
      obtain ⟨-, b₀, b₁, r₂', r₃', e, h2, -⟩ := hrc
      have := (List.cons.inj e).1
      subst this
      omega
  have h1 := C14_untouched p ⟨tr, hr⟩ h d hd h0
  have h2 : d.sessions = [] := by rw [h1]
  refine ⟨h0, h2, ?_, ?_⟩
  · intro env bytes l w hw hl
    have hl' := hl
    obtain ⟨-, b₀, b₁, r₂, r₃, rfl, h3, h4, h5⟩ := hl'
    refine (C14_reset_first p env h d b₀ _ hd h0 h3 ?_ ?_).1
    · rw [h4]
      generalize lineMeans l = c
      cases c <;> (dsimp only [cmdCode]; decide)
    · rintro ⟨h6, b₁', r₂', r₃', q, e, h7⟩
      cases e
      rw [h4] at h6
      rw [h5] at h7
      have := notReset l w hw
      revert h6 h7 this
      generalize lineMeans l = c
      cases c <;> (dsimp only [cmdCode]; intro h6 h7 this)
      case coreDeviceReset rc => exact this rc rfl
      all_goals revert h6 h7; decide
  · intro env bytes m hm
    have := C65_unknown p env h d bytes m hd hm (by rw [h2]; rfl)
    unfold AnswersTo at this
    rw [AMap.insert_self hd] at this
    exact this

/-- Lines that are not broken, with the bytes written. -/
example : (∀ l ∈ [Line.sessionInit 7, .sessionUpdateControllerMulticastList 7 true 0x1234 9], Line.InRange l ∧ ¬LineBroken l) ∧
    [Line.sessionInit 7, .sessionUpdateControllerMulticastList 7 true 0x1234 9].map (·.write) =
      [some [0x21, 0x00, 0, 5, 7, 0, 0, 0, 1], some [0x21, 0x07, 0, 12, 7, 0, 0, 0, 0, 1, 0x34, 0x12, 9, 0, 0, 0]] := by
  refine ⟨?_, by decide +kernel⟩
  intro l hl
  simp only [List.mem_cons, List.not_mem_nil, or_false] at hl
  rcases hl with rfl | rfl
  · exact ⟨show 7 < 2 ^ 32 by decide, id⟩
  · exact ⟨⟨of_decide_eq_true rfl, of_decide_eq_true rfl, of_decide_eq_true rfl⟩, id⟩

/-- A console host connects and types `session_init 7`. -/
example : ∃ tr p d, Pica.Run .new tr p ∧ p.devices.get? 0 = some d ∧
    tr.map (·.command) = [.connect, .uciPacket 0 [0x21, 0x00, 0, 5, 7, 0, 0, 0, 1]] ∧
    IsCmd [0x21, 0x00, 0, 5, 7, 0, 0, 0, 1] (lineMeans (.sessionInit 7)) := by
  refine ⟨_, _, _, Ex.after_run [(Ex.env, .connect), Ex.pkt 0 [0x21, 0x00, 0, 5, 7, 0, 0, 0, 1]] (by decide +kernel),
    rfl, rfl, trivial, _, _, _, _, rfl, of_decide_eq_true rfl, of_decide_eq_true rfl, of_decide_eq_true rfl⟩

end Pica.Props

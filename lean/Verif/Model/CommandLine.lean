import Verif.Model.Console
import Verif.Model.WebText
/-!
The lines typed at the interactive console, `py/pica/console.py` 36-144, 258-358, 390-394 and 405-491. The classes of packets are in `Model/Console.lean`.

The answers to the requests of the `pica_` commands and the texts printed are left out. `int` takes the digits of other scripts
too; here they are refused.
-/

namespace Pica.Console

/-- `str.isspace` of a character, for the `rstrip` of 394. -/
def isSpace (c : Char) : Bool :=
  let n := c.toNat
  (9 ≤ n && n ≤ 13) || (28 ≤ n && n ≤ 32) || n == 0x85 || n == 0xa0 || n == 0x1680 || (0x2000 ≤ n && n ≤ 0x200a) ||
    n == 0x2028 || n == 0x2029 || n == 0x202f || n == 0x205f || n == 0x3000

/-- `str.rstrip()`, 394. -/
def rstrip (s : Text) : Text := (s.reverse.dropWhile isSpace).reverse

/-- What `int` skips: white space other than the separators 1c to 1f. -/
def isGap (c : Char) : Bool := isSpace c && !(28 ≤ c.toNat && c.toNat ≤ 31)

/-- The argument of `int` without white space at the ends. -/
def strip (s : Text) : Text := ((s.dropWhile isGap).reverse.dropWhile isGap).reverse

/-- The value of a digit of `int(s, base)`. -/
def digit? (base : Nat) (c : Char) : Option Nat :=
  let v :=
    if '0' ≤ c ∧ c ≤ '9' then some (c.toNat - 48)
    else if 'a' ≤ c ∧ c ≤ 'z' then some (c.toNat - 87)
    else if 'A' ≤ c ∧ c ≤ 'Z' then some (c.toNat - 55)
    else none
  v.filter (· < base)

/-- Digits with at most one underscore between two of them: the number and how many there are. `seen` is set after a digit. -/
def digitsLoop (base : Nat) : Text → Bool → Nat → Nat → Option (Nat × Nat)
  | [], seen, n, k => if seen then some (n, k) else none
  | c :: r, seen, n, k =>
    if c = '_' then
      if seen then digitsLoop base r false n k else none
    else
      match digit? base c with
      | some d => digitsLoop base r true (base * n + d) (k + 1)
      | none => none

/-- Whether there is a minus sign, and what follows the sign. -/
def signed : Text → Bool × Text
  | '-' :: r => (true, r)
  | '+' :: r => (false, r)
  | s => (false, s)

/-- `int(s)`; `none` is a `ValueError`. There may be at most 4300 digits. -/
def int? (s : Text) : Option Int :=
  let (neg, s) := signed (strip s)
  match digitsLoop 10 s false 0 0 with
  | some (n, k) => if k ≤ 4300 then some (if neg then -(n : Int) else n) else none
  | none => none

/-- `int(s, 16)`; `none` is a `ValueError`. There may be a prefix `0x`, with an underscore. -/
def hex? (s : Text) : Option Int :=
  let (neg, s) := signed (strip s)
  let s :=
    match s with
    | '0' :: 'x' :: '_' :: r => r
    | '0' :: 'X' :: '_' :: r => r
    | '0' :: 'x' :: r => r
    | '0' :: 'X' :: r => r
    | s => s
  (digitsLoop 16 s false 0 0).map fun x => if neg then -(x.1 : Int) else x.1

/-- The argument of `int.to_bytes` and of the serialisers must not be negative: `OverflowError`. -/
def nat? (s : Text) : Option Nat :=
  match int? s with
  | some (.ofNat n) => some n
  | _ => none

/-- A byte of `parse_mac_address`, 46; `bytes` raises a `ValueError` for numbers that are no bytes. -/
def byte? (b : Text) : Option UInt8 :=
  match hex? b with
  | some (.ofNat n) => if n < 256 then some (UInt8.ofNat n) else none
  | _ => none

/-- `parse_mac_address`, 44-46. -/
def macAddress? (s : Text) : Option Bytes := (splitOn ':' s).mapM byte?

/-- The words of a line, 473-483: the command, the positional arguments and the keyword arguments; `none` is a `ValueError`. -/
def words : List Text → List Text → AMap Text Text → Option (List Text × AMap Text Text)
  | [], args, kargs => some (args, kargs)
  | param :: params, args, kargs =>
    if param = [] then words params args kargs
    else if '=' ∈ param then
      match splitOn '=' param with
      | [key, value] => words params args (kargs.insert key value)
      | _ => none
    else words params (args ++ [param]) kargs

/-- The parameters of a command after `self`, each with its default. -/
structure Signature where
  params : List (String × Option String)
  /-- `**kargs` -/
  rest : Bool
  deriving DecidableEq

/-- How Python binds the arguments of `commands[cmd](*args, **kargs)`, 491; `none` is a `TypeError`. -/
def Signature.bind (f : Signature) (args : List Text) (kargs : AMap Text Text) : Option (List Text) :=
  if f.params.length < args.length then none
  else if kargs.keys.any (fun k => k == "self".toList || (f.params.take args.length).any fun p => p.1.toList == k) then none
  else if !f.rest && kargs.keys.any (fun k => !f.params.any fun p => p.1.toList == k) then none
  else do
    let more ← (f.params.drop args.length).mapM fun p =>
      match kargs.get? p.1.toList with
      | some v => some v
      | none => p.2.map String.toList
    pure (args ++ more)

/-- What a line does. -/
inductive Effect where
  /-- the console ends -/
  | quits
  /-- the command is unknown: the others are listed -/
  | usage
  /-- nothing but a message -/
  | says
  /-- an exception, which ends the console -/
  | raises
  /-- packets are written to the connection -/
  | sends (packets : List Bytes)
  /-- `requests.get` of a path -/
  | gets (path : Text)
  /-- `requests.post` to a path, with a body -/
  | posts (path : Text) (body : Bytes)
  deriving DecidableEq

/-- The parameters for a position, 62-69, 89-96, 121-128. -/
def placeParams : List (String × Option String) :=
  [("mac_address", some "00:00"), ("x", some "0"), ("y", some "0"), ("z", some "0"), ("yaw", some "0"), ("pitch", some "0"),
    ("roll", some "0")]

/-- The parameter of most commands for a session. -/
def sessionParams : List (String × Option String) := [("session_id", some "0")]

/-- The commands, 406-428, with the parameters of 54-310. -/
def commands : List (String × Signature) := [
  ("pica_get_state", ⟨[], true⟩),
  ("pica_init_uci_device", ⟨placeParams, true⟩),
  ("pica_create_anchor", ⟨placeParams, true⟩),
  ("pica_destroy_anchor", ⟨[("mac_address", some "00:00")], true⟩),
  ("pica_set_position", ⟨placeParams, true⟩),
  ("device_reset", ⟨[], true⟩),
  ("get_device_info", ⟨[], true⟩),
  ("get_config", ⟨[], true⟩),
  ("set_config", ⟨[("low_power_mode", some "0")], true⟩),
  ("get_caps_info", ⟨[], true⟩),
  ("session_init", ⟨sessionParams, true⟩),
  ("session_deinit", ⟨sessionParams, true⟩),
  ("session_set_app_config",
    ⟨[("session_id", some "0"), ("ranging_interval", some "200"), ("dst_mac_addresses", some "")], true⟩),
  ("session_get_app_config", ⟨sessionParams, true⟩),
  ("session_get_count", ⟨[], true⟩),
  ("session_get_state", ⟨sessionParams, true⟩),
  ("session_update_controller_multicast_list",
    ⟨[("session_id", some "0"), ("action", some "add"), ("mac_address", some "0"), ("subsession_id", some "0")], true⟩),
  ("range_start", ⟨sessionParams, true⟩),
  ("range_stop", ⟨sessionParams, true⟩),
  ("data_transfer", ⟨[("dst_mac_address", none), ("file_name", none), ("session_id", some "0")], false⟩),
  ("get_ranging_count", ⟨sessionParams, true⟩)]

/-- `json.dumps` of an object of integers, 74-83, 101-110, 133-142. -/
def dumps (fields : List (String × Int)) : Text :=
  '{' :: List.intercalate ", ".toList (fields.map fun f => WebText.string f.1.toList ++ ": ".toList ++ WebText.integer f.2) ++ ['}']

/-- The request with a position, 72-84, 99-111, 131-143. -/
def placeRequest (name : String) : List Text → Effect
  | [mac, x, y, z, yaw, pitch, roll] =>
    match int? x, int? y, int? z, int? yaw, int? pitch, int? roll with
    | some x, some y, some z, some yaw, some pitch, some roll =>
      .posts ('/' :: name.toList ++ '/' :: mac)
        ((dumps [("x", x), ("y", y), ("z", z), ("yaw", yaw), ("pitch", pitch), ("roll", roll)]).flatMap String.utf8EncodeChar)
    | _, _, _, _, _, _ => .raises
  | _ => .raises

/-- What a command writes. -/
def Line.effect (l : Line) : Effect :=
  match l.write with
  | some w => .sends [w]
  | none => .raises

/-- A command for a session. -/
def onSession (f : Nat → Line) : List Text → Effect
  | [sid] =>
    match nat? sid with
    | some n => (f n).effect
    | none => .raises
  | _ => .raises

/-- `data_transfer`, 305-358: exceptions are printed. `files` are the files that can be read. -/
def transfer (files : Text → Option Bytes) : List Text → Effect
  | [dst, file, sid] =>
    match files file, macAddress? dst, nat? sid with
    | some b, some dst, some sid =>
      match dataTransfer dst b sid with
      | some ws => .sends ws
      | none => .says
    | _, _, _ => .says
  | _ => .raises

/-- `session_update_controller_multicast_list`, 258-289. -/
def multicast : List Text → Effect
  | [sid, action, mac, sub] =>
    if action = "add".toList ∨ action = "remove".toList then
      match nat? sid, nat? mac, nat? sub with
      | some sid, some mac, some sub => (Line.sessionUpdateControllerMulticastList sid (action = "add".toList) mac sub).effect
      | _, _, _ => .raises
    else .says
  | _ => .raises

/-- The method of a command with its arguments. The six that name what does not exist raise an exception before anything
is sent, whatever their arguments, see `Line.command`. -/
def call (files : Text → Option Bytes) (name : Text) (args : List Text) : Effect :=
  if name = "pica_get_state".toList then .gets "/get-state".toList
  else if name = "pica_init_uci_device".toList then placeRequest "init-uci-device" args
  else if name = "pica_create_anchor".toList then placeRequest "create-anchor" args
  else if name = "pica_destroy_anchor".toList then
    match args with
    | [mac] => .posts ("/destroy-anchor/".toList ++ mac) []
    | _ => .raises
  else if name = "pica_set_position".toList then placeRequest "set-position" args
  else if name = "session_init".toList then onSession .sessionInit args
  else if name = "session_deinit".toList then onSession .sessionDeinit args
  else if name = "session_get_app_config".toList then onSession .sessionGetAppConfig args
  else if name = "session_get_count".toList then Line.sessionGetCount.effect
  else if name = "session_get_state".toList then onSession .sessionGetState args
  else if name = "session_update_controller_multicast_list".toList then multicast args
  else if name = "range_start".toList then onSession .rangeStart args
  else if name = "range_stop".toList then onSession .rangeStop args
  else if name = "get_ranging_count".toList then onSession .getRangingCount args
  else if name = "data_transfer".toList then transfer files args
  else .raises

/-- One turn of the loop of `command_line`, 471-491, for a line as it was typed. -/
def enter (files : Text → Option Bytes) (line : Text) : Effect :=
  match splitOn ' ' (rstrip line) with
  | [] => .raises
  | cmd :: params =>
    match words params [] [] with
    | none => .raises
    | some (args, kargs) =>
      if cmd = "quit".toList ∨ cmd = "q".toList then .quits
      else
        match commands.find? fun c => c.1.toList == cmd with
        | none => .usage
        | some (_, f) =>
          match f.bind args kargs with
          | none => .raises
          | some values => call files cmd values

end Pica.Console

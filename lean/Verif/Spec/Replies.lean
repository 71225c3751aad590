import Verif.Spec.Site
import Verif.Spec.Http
/-! What the clients of the web server get. -/

namespace Pica.Spec

/-- The paths of the files. -/
def filePaths : List String :=
  ["/", "/openapi", "/openapi.yaml", "/src/components/Map.js", "/src/components/DeviceInfo.js", "/src/components/Orientation.js"]

/-- The registry after a device has been added under a handle. -/
def NowHas (w w' : Web) (h : Nat) (i : Info) : Prop :=
  w'.poisoned = false ∧ ∀ k, w'.devices.get? k = if k = h then some i else w.devices.get? k

/-- The registry after a handle has been removed. -/
def NoLonger (w w' : Web) (h : Nat) : Prop :=
  w'.poisoned = false ∧ ∀ k, w'.devices.get? k = if k = h then none else w.devices.get? k

/-- The requests for anchors, oldest first. -/
def requests (ls : List Site.Label) : List Ask :=
  ls.filterMap fun
    | .ask a => some a
    | _ => none

/-- The commands about anchors that have been processed and their outcomes, oldest first. -/
def outcomes (ls : List Site.Label) : List (Command × Except PicaCommandError Nat) :=
  ls.filterMap fun
    | .process ev => match ev.out with
      | [.anchorReply r] => some (ev.command, r)
      | _ => none
    | _ => none

/-- The answers taken by the handlers, and those lost with a handler. -/
def takenAnswers (ls : List Site.Label) : List (Ask × Except PicaCommandError Nat) :=
  ls.filterMap fun
    | .answer _ a r => some (a, r)
    | .drops a r => some (a, r)
    | _ => none

end Pica.Spec

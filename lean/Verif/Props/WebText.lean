import Verif.Proofs.WebText
/-! C79: the texts of the web server. -/

namespace Pica.Props
open Pica.Spec WebText

/-- C79: a listener of /events that follows the standards gets the events sent, in order, each with its name and its fields. -/
theorem C79_events (euler : Euler) (es : List WebEvent) :
    understood (es.flatMap (item euler)) =
      es.map fun e => ((eventContent euler e).1, some (eventContent euler e).2) := by
  unfold understood
  induction es with
  | nil => rfl
  | cons e es ih =>
    have hr : Spec.Json.read (event euler e) = some (eventContent euler e).2 := by
      refine reads_read (reads_event euler e) ?_
      have : 9 ≤ (event euler e).length := by
        have h1 : "category".toList.length = 8 := rfl
        have h2 : "source_category".toList.length = 15 := rfl
        cases e <;>
          (simp only [event, device, object, commas, string, List.map_cons, List.length_append, List.length_cons]; omega)
      omega
    rw [List.flatMap_cons, read_item, List.map_cons, List.map_cons, ih]
    dsimp only
    rw [hr]
    cases e <;> rfl

/-- C79: as long as the text arrives in pieces it has got the first ones of them, and nothing else. -/
theorem C79_pieces (euler : Euler) (es : List WebEvent) (t : Text) (h : t <+: es.flatMap (item euler)) :
    understood t <+: es.map fun e => ((eventContent euler e).1, some (eventContent euler e).2) := by
  rw [← C79_events]
  obtain ⟨r, hr⟩ := h
  rw [← hr]
  unfold understood EventStream.read
  refine List.IsPrefix.map _ ?_
  obtain ⟨ms, hm⟩ := lines_prefix [] t r
  rw [← hm]
  exact events_prefix _ _ _ _

/-- C79: the body of /get-state is a document that lists the devices, in the order of the registry. -/
theorem C79_state (euler : Euler) (devices : List Info) :
    Spec.Json.read (state euler devices) = some (stateContent euler devices) := by
  have h1 : List.Forall₂ (fun t v => Reads t v 10) (devices.map fun i => device euler i.category i.mac i.position)
      (devices.map fun i => .obj (deviceFields euler i.category i.mac i.position)) := by
    induction devices with
    | nil => exact .nil
    | cons i is ih => exact .cons (reads_device euler i.category i.mac i.position) ih
  have h2 := reads_array h1 (fun t ht => by obtain ⟨i, -, rfl⟩ := List.mem_map.mp ht; exact ⟨_, rfl⟩)
  have h3 := reads_object (fs := [("devices", '[' :: commas (devices.map fun i => device euler i.category i.mac i.position) ++ [']'])])
    (by simp) (.cons ⟨plain_name "devices" (by decide), h2⟩ .nil)
  refine reads_read h3 ?_
  simp only [List.length_map, List.length_singleton]
  have hc : ∀ ts : List Text, (∀ t ∈ ts, 1 ≤ t.length) → ts.length ≤ (commas ts).length + 1 := by
    intro ts
    induction ts with
    | nil => simp
    | cons t ts ih =>
      intro h
      have := ih fun x hx => h x (List.mem_cons_of_mem _ hx)
      have := h t List.mem_cons_self
      cases ts with
      | nil => simp
      | cons u ts => simp only [commas, List.length_append, List.length_cons] at *; omega
  have := hc (devices.map fun i => device euler i.category i.mac i.position) (fun t ht => by
    obtain ⟨i, -, rfl⟩ := List.mem_map.mp ht
    simp [device, object])
  unfold state
  rw [List.length_map] at this
  simp only [object, commas, List.map_cons, List.map_nil, string, List.length_append, List.length_cons, List.length_nil]
  have h7 : "devices".toList.length = 7 := rfl
  omega

/-- Two events, and a state with a device. -/
example : understood ([.removed .anchor (.short ⟨[0x0a, 0xff], rfl⟩), .neighbor (.uci, .short ⟨[0, 0], rfl⟩)
      (.anchor, .short ⟨[0, 1], rfl⟩) ⟨100, -45, 9⟩].flatMap (item fun _ => (0, 0, 0))) =
    [("device-removed".toList, some (.obj [("category".toList, .str "Anchor".toList), ("mac_address".toList, .str "0A:FF".toList)])),
      ("neighbor-updated".toList, some (.obj [("source_category".toList, .str "Uci".toList),
        ("source_mac_address".toList, .str "00:00".toList), ("destination_category".toList, .str "Anchor".toList),
        ("destination_mac_address".toList, .str "00:01".toList), ("distance".toList, .int 100),
        ("azimuth".toList, .int (-45)), ("elevation".toList, .int 9)]))] :=
  C79_events _ _

example : Spec.Json.read (state (fun _ => (-90, 0, 0)) [⟨.uci, .short ⟨[0, 7], rfl⟩, ⟨-5, 0, 12, -90, 0, 0⟩⟩]) =
    some (.obj [("devices".toList, .arr [.obj [("category".toList, .str "Uci".toList), ("mac_address".toList, .str "00:07".toList),
      ("x".toList, .int (-5)), ("y".toList, .int 0), ("z".toList, .int 12), ("yaw".toList, .int (-90)),
      ("pitch".toList, .int 0), ("roll".toList, .int 0)]])]) :=
  C79_state _ _

end Pica.Props

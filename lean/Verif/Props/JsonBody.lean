import Verif.Proofs.JsonPage
import Verif.Proofs.JsonStray
import Verif.Proofs.JsonWhole
import Verif.Props.OpenApi
/-! C86: the positions in the bodies of requests. -/

namespace Pica.Props
open Pica.Spec Pica.Spec.JsonText Web

/-- The commands with a position, `src/bin/http-server/main.rs` 417-443. -/
def Places (name : String) : Prop := name = "create-anchor" ∨ name = "set-position" ∨ name = "init-uci-device"

/-- What such a command does with a position. -/
def place (name : String) (m : MacAddress) (p : Position) : Action :=
  if name = "create-anchor" then .createAnchor m p else .setPosition m p

/-- The request is a command with a position for the device `m`. -/
structure Placing (path : List Char) (name : String) (m : MacAddress) : Prop where
  free : path ∉ staticPaths
  places : Places name
  text : ∃ t, Names path name (some t) ∧ MacAddress.parse t = some m

theorem placing_route {path : List Char} {name : String} {m : MacAddress} (h : Placing path name m) (json : Bytes → Json)
    (b : Bytes) : route json path (some b) =
      match json b with
      | .ok p => place name m p
      | .eof => place name m .default
      | .bad => .now (.status 406) := by
  obtain ⟨t, ht, hm⟩ := h.text
  have hn : name ∈ macNames ∧ name ≠ "destroy-anchor" := by
    rcases h.places with rfl | rfl | rfl <;> decide
  obtain ⟨-, h2, h3⟩ := (C54_address_partial json path b h.free name hn.1 t ht).2 m hm
  have key : ∀ p, (json b = .ok p ∨ json b = .eof ∧ p = .default) → route json path (some b) = place name m p := by
    intro p hp
    obtain ⟨h4, h5⟩ := h3 p hp
    unfold place
    split
    · rename_i hc; exact h4 hc
    · rename_i hc; exact h5 (h.places.resolve_left hc)
  cases hj : json b with
  | ok p => exact key p (.inl hj)
  | eof => exact key _ (.inr ⟨hj, rfl⟩)
  | bad => exact h2 hn.2 hj

theorem place_inj {name : String} {m m' : MacAddress} {p p' : Position} (h : place name m p = place name m' p') : p = p' := by
  unfold place at h
  split at h <;> cases h <;> rfl

theorem place_now {name : String} {m : MacAddress} {p : Position} {r : Reply} : place name m p ≠ .now r := by
  unfold place
  split <;> simp

/-- C86: a body that describes a position places the device there. -/
theorem C86_taken {path : List Char} {name : String} {m : MacAddress} (h : Placing path name m) {b : Bytes} {v : Value}
    {p : Position} (hd : Document v b) (hp : Describes v p) (hn : Named v) :
    route JsonBody.parse path (some b) = place name m p := by
  rw [placing_route h, JsonBody.parse_complete hd hp hn]

/-- C86: a body describes at most one position. -/
theorem C86_unique {b : Bytes} {v v' : Value} {p p' : Position} (hd : Document v b) (hp : Describes v p) (hn : Named v)
    (hd' : Document v' b) (hp' : Describes v' p') (hn' : Named v') : p = p' := by
  have h := JsonBody.parse_complete hd hp hn
  rw [JsonBody.parse_complete hd' hp' hn'] at h
  cases h
  rfl

/-- C86, as far as it holds: a device is placed where the body describes, or at the origin by a body that describes nothing. -/
theorem C86_partial {path : List Char} {name : String} {m m' : MacAddress} (h : Placing path name m) {b : Bytes} {p : Position}
    (hr : route JsonBody.parse path (some b) = place name m' p) :
    (∃ v, Document v b ∧ Describes v p) ∨
      p = .default ∧ ∀ v p', Document v b → Describes v p' → ¬ Named v := by
  rw [placing_route h] at hr
  split at hr
  · rename_i q hq
    obtain rfl := place_inj hr
    exact .inl (JsonBody.parse_sound hq)
  · rename_i he
    refine .inr ⟨(place_inj hr).symm, fun v p' hd hp hn => ?_⟩
    rw [JsonBody.parse_complete hd hp hn] at he
    cases he
  · exact absurd hr.symm place_now

/-- C86: a body that is refused describes no position. -/
theorem C86_refused {path : List Char} {name : String} {m : MacAddress} (h : Placing path name m) {b : Bytes}
    (hr : route JsonBody.parse path (some b) = .now (.status 406)) {v : Value} {p : Position} (hd : Document v b)
    (hp : Describes v p) : ¬ Named v := by
  intro hn
  rw [C86_taken h hd hp hn] at hr
  exact place_now hr

/-- C86, exactly, of bodies that are JSON documents: those that describe a position place the device there and all others are
refused. Only bodies that break off, or are blank, are taken for the origin. -/
theorem C86_whole {path : List Char} {name : String} {m : MacAddress} (h : Placing path name m) {b : Bytes} {v : Value}
    (hd : Document v b) (hn : Named v) :
    (∀ p, route JsonBody.parse path (some b) = place name m p ↔ Describes v p) ∧
      (route JsonBody.parse path (some b) = .now (.status 406) ↔ ∀ p, ¬ Describes v p) := by
  have key : (∀ p, Describes v p → JsonBody.parse b = .ok p) ∧
      (JsonBody.parse b = .bad ∨ ∃ p, JsonBody.parse b = .ok p ∧ Describes v p) :=
    ⟨fun p hp => JsonBody.parse_complete hd hp hn, JsonBody.parse_whole hd⟩
  rw [placing_route h]
  rcases key.2 with hb | ⟨p, hb, hp⟩ <;> rw [hb]
  · refine ⟨fun p => ⟨fun e => absurd e.symm place_now, fun hp => ?_⟩, ⟨fun _ p hp => ?_, fun _ => rfl⟩⟩ <;>
    · rw [key.1 p hp] at hb
      cases hb
  · refine ⟨fun q => ⟨fun e => place_inj e ▸ hp, fun hq => ?_⟩, ⟨fun e => absurd e place_now, fun e => absurd hp (e p)⟩⟩
    rw [key.1 q hq] at hb
    cases hb
    rfl

/-- C86: each request of this kind places the device or is refused. -/
theorem C86_total {path : List Char} {name : String} {m : MacAddress} (h : Placing path name m) (b : Bytes) :
    (∃ p, route JsonBody.parse path (some b) = place name m p) ∨
      route JsonBody.parse path (some b) = .now (.status 406) := by
  rw [placing_route h]
  split
  · exact .inl ⟨_, rfl⟩
  · exact .inl ⟨_, rfl⟩
  · exact .inr rfl

/-- C86: the page's own requests are understood, for all positions. -/
theorem C86_page {path : List Char} {name : String} {m : MacAddress} (h : Placing path name m) (p : Position) :
    route JsonBody.parse path (some (JsonBody.pageBody p)) = place name m p :=
  C86_taken h (JsonBody.page_document p) (JsonBody.page_describes p) (JsonBody.page_named p)

/-- C86: a body without anything but blanks stands for the origin. -/
theorem C86_blank {path : List Char} {name : String} {m : MacAddress} (h : Placing path name m) {b : Bytes} (hb : Blank b) :
    route JsonBody.parse path (some b) = place name m .default := by
  have hs : JsonBody.skip b = [] := by
    have := JsonBody.skip_blank hb []
    rwa [List.append_nil] at this
  have : JsonBody.parse b = .eof := by
    unfold JsonBody.parse JsonBody.body
    rw [hs]
  rw [placing_route h, this]

/-- C86, of bodies that arrive only in part: if more than blanks is missing, the device is placed at the origin, except that
a body that ends in a minus, a plus, a point or an `e` may be refused. It is never placed anywhere else. -/
theorem C86_cut {path : List Char} {name : String} {m : MacAddress} (h : Placing path name m) {b s : Bytes} {v : Value}
    {p : Position} (hd : Document v (b ++ s)) (hp : Describes v p) (hn : Named v) (hs : ¬ Blank s) :
    route JsonBody.parse path (some b) = place name m .default ∨
      route JsonBody.parse path (some b) = .now (.status 406) ∧
        ∃ u c, b = u ++ [c] ∧ (c = 45 ∨ c = 46 ∨ c = 101 ∨ c = 69 ∨ c = 43) := by
  rw [placing_route h]
  rcases JsonBody.parse_cut (JsonBody.parse_complete hd hp hn) with h1 | ⟨h1, h2⟩ | ⟨-, h1⟩
  · exact .inl (by rw [h1])
  · exact .inr ⟨by rw [h1], h2⟩
  · exact absurd h1 hs

/-- C86: only the end of a body can be missing. A body with a control character other than a blank is refused, whatever is
around it, if there are at least three bytes after it. -/
theorem C86_stray {path : List Char} {name : String} {m : MacAddress} (h : Placing path name m) (b s : Bytes) {c : UInt8}
    (hc : c < 32) (hb : c ≠ 9 ∧ c ≠ 10 ∧ c ≠ 13) (hs : 3 ≤ s.length) :
    route JsonBody.parse path (some (b ++ c :: s)) = .now (.status 406) := by
  have : JsonBody.parse (b ++ c :: s) = .bad := by
    refine JsonBody.parse_stray ?_ b
    match s, hs with
    | x :: y :: w :: s, _ => exact ⟨c, x, y, w, s, rfl, hc, hb⟩
  rw [placing_route h, this]

/-- C86: a fraction is refused, but its first part up to the point is one of the bodies that end early. -/
theorem C86_fraction {path : List Char} {name : String} {m : MacAddress} (h : Placing path name m) {d e : UInt8}
    (hd : 48 ≤ d ∧ d ≤ 57) (he : 48 ≤ e ∧ e ≤ 57) :
    route JsonBody.parse path (some [91, d, 46]) = place name m .default ∧
      route JsonBody.parse path (some [91, d, 46, e]) = .now (.status 406) := by
  have all : ∀ d : UInt8, 48 ≤ d → d ≤ 57 → d = 48 ∨ d = 49 ∨ d = 50 ∨ d = 51 ∨ d = 52 ∨ d = 53 ∨ d = 54 ∨ d = 55 ∨ d = 56 ∨ d = 57 := by
    intro d h1 h2
    simp only [UInt8.le_iff_toNat_le, ← UInt8.toNat_inj, UInt8.reduceToNat] at h1 h2 ⊢
    omega
  rw [placing_route h, placing_route h]
  have h1 : JsonBody.parse [91, d, 46] = .eof := by
    rcases all d hd.1 hd.2 with rfl | rfl | rfl | rfl | rfl | rfl | rfl | rfl | rfl | rfl <;> decide +kernel
  have h2 : JsonBody.parse [91, d, 46, e] = .bad := by
    rcases all d hd.1 hd.2 with rfl | rfl | rfl | rfl | rfl | rfl | rfl | rfl | rfl | rfl <;>
    rcases all e he.1 he.2 with rfl | rfl | rfl | rfl | rfl | rfl | rfl | rfl | rfl | rfl <;> decide +kernel
  rw [h1, h2]
  exact ⟨rfl, rfl⟩

theorem invalid_ident (w r : Bytes) : JsonBody.invalid (JsonBody.ident w r) = if r <+: w ∧ r ≠ w then .eof else .bad := by
  induction w generalizing r with
  | nil =>
    rw [if_neg (fun h => h.2 (List.prefix_nil.mp h.1))]
    rfl
  | cons x w ih =>
    match r with
    | [] => rw [if_pos ⟨List.nil_prefix, by simp⟩]; rfl
    | c :: r =>
      rw [JsonBody.ident]
      by_cases hc : c = x
      · subst hc
        rw [if_pos rfl, ih]
        simp only [List.cons_prefix_cons, true_and, ne_eq, List.cons.injEq]
      · rw [if_neg hc, if_neg (fun h => hc (List.cons_prefix_cons.mp h.1).1)]
        rfl

/-- C86: a body that begins like `null`, `true` or `false` is one that ends early if it is no more than the first letters of
it, and places the device at the origin; otherwise it is refused. -/
theorem C86_word {path : List Char} {name : String} {m : MacAddress} (h : Placing path name m) {w u b : Bytes}
    (hw : w = [110, 117, 108, 108] ∨ w = [116, 114, 117, 101] ∨ w = [102, 97, 108, 115, 101]) (hu : Blank u)
    (hb : b ≠ []) (hh : b.head? = w.head?) :
    (b <+: w ∧ b ≠ w → route JsonBody.parse path (some (u ++ b)) = place name m .default) ∧
    (¬ (b <+: w ∧ b ≠ w) → route JsonBody.parse path (some (u ++ b)) = .now (.status 406)) := by
  have key : JsonBody.parse (u ++ b) = if b <+: w ∧ b ≠ w then .eof else .bad := by
    match b, hb with
    | c :: r, _ =>
      have hc : w = c :: w.tail := by rcases hw with rfl | rfl | rfl <;> simp at hh <;> simp [hh]
      have hk : JsonBody.invalidType c r = if r <+: w.tail ∧ r ≠ w.tail then .eof else .bad := by
        rw [← invalid_ident]
        rcases hw with rfl | rfl | rfl <;> (injection hc with hc; subst hc; rfl)
      have hs : JsonBody.skip (c :: r) = c :: r := by
        rcases hw with rfl | rfl | rfl <;> (injection hc with hc; subst hc; rfl)
      have h1 : c ≠ 91 ∧ c ≠ 123 := by
        rcases hw with rfl | rfl | rfl <;> (injection hc with hc; subst hc; decide)
      have he : (c :: r <+: w ∧ c :: r ≠ w) ↔ (r <+: w.tail ∧ r ≠ w.tail) := by
        rw [hc]
        simp only [List.cons_prefix_cons, true_and, ne_eq, List.cons.injEq, List.tail_cons]
      unfold JsonBody.parse JsonBody.body
      rw [JsonBody.skip_blank hu, hs]
      simp only [h1.1, h1.2, if_false, hk, he]
      by_cases hp : r <+: w.tail ∧ r ≠ w.tail
      · rw [if_pos hp, if_pos hp]
      · rw [if_neg hp, if_neg hp]
  rw [placing_route h, key]
  refine ⟨fun hp => by rw [if_pos hp], fun hp => by rw [if_neg hp]⟩

namespace Body

/-- A text of ASCII characters as bytes. -/
def bytes (s : String) : Bytes := s.toList.map fun c => UInt8.ofNat c.toNat

def path : List Char := "/set-position/00:01".toList
def mac : MacAddress := .short ⟨[0, 1], rfl⟩

theorem placing : Placing path "set-position" mac :=
  ⟨by decide, .inr (.inl rfl), "00:01".toList, ⟨1, rfl, by intro t ht; cases ht; decide⟩, by decide⟩

end Body

/-- C86 is false: half of a body, which describes nothing, moves the device to the origin. -/
theorem C86_false : ¬ ∀ (path : List Char) (name : String) (m : MacAddress), Placing path name m → ∀ (b : Bytes) (p : Position),
    ¬ Blank b → route JsonBody.parse path (some b) = place name m p → ∃ v, Document v b ∧ Describes v p := by
  intro h
  have he : JsonBody.parse (Body.bytes "{\"x\":7,\"y\":8") = .eof := by decide +kernel
  obtain ⟨v, hd, hp⟩ := h _ _ _ Body.placing (Body.bytes "{\"x\":7,\"y\":8") .default (by
    intro hb
    have := hb 123 (by decide +kernel)
    revert this
    decide) (by rw [placing_route Body.placing, he])
  obtain ⟨w, t, w', hb, hw, ht, hw'⟩ := hd
  have hlast : ∀ {c : UInt8} {u : Bytes}, t = u ++ [c] → c = 56 := by
    intro c u e
    have hn : w' = [] := by
      cases w' using List.reverseRecOn with
      | nil => rfl
      | append_singleton l x =>
        have hx := hw' x (by simp)
        have : (Body.bytes "{\"x\":7,\"y\":8").getLast? = some x := by rw [hb]; simp
        have h8 : (Body.bytes "{\"x\":7,\"y\":8").getLast? = some 56 := by decide +kernel
        rw [h8] at this
        cases this
        exact absurd hx (by decide)
    have : (Body.bytes "{\"x\":7,\"y\":8").getLast? = some c := by rw [hb, hn, e]; simp
    have h8 : (Body.bytes "{\"x\":7,\"y\":8").getLast? = some 56 := by decide +kernel
    rw [h8] at this
    cases this
    rfl
  cases ht with
  | none _ => exact absurd (hlast (u := 91 :: _) rfl) (by decide)
  | arr _ => exact absurd (hlast (u := 91 :: _) rfl) (by decide)
  | empty _ => exact absurd (hlast (u := 123 :: _) rfl) (by decide)
  | obj _ => exact absurd (hlast (u := 123 :: _) rfl) (by decide)
  | null => exact hp
  | «true» => exact hp
  | «false» => exact hp
  | num _ => exact hp
  | str _ => exact hp

example : route JsonBody.parse Body.path (some (JsonBody.pageBody ⟨-32768, 7, 32767, -180, -90, 180⟩)) =
    .setPosition Body.mac ⟨-32768, 7, 32767, -180, -90, 180⟩ := C86_page Body.placing _

example : JsonBody.pageBody ⟨-5, 0, 120, 0, -90, 180⟩ =
    Body.bytes "{\"x\":-5,\"y\":0,\"z\":120,\"yaw\":0,\"pitch\":-90,\"roll\":180}" := by decide +kernel

/-- Another order, blanks, and a member that is ignored. -/
example : JsonBody.parse (Body.bytes " { \"roll\" : 6 , \"pitch\":5,\"yaw\":4,\"note\":[{\"x\":1e9},null],\"z\":3,\"\\u0079\":2,\"x\":1}\n") =
    .ok ⟨1, 2, 3, 4, 5, 6⟩ := by decide +kernel

/-- An array, a number that does not fit, a fraction, a name given twice, a missing one. -/
example : JsonBody.parse (Body.bytes "[1,2,3,4,5,6]") = .ok ⟨1, 2, 3, 4, 5, 6⟩ ∧
    JsonBody.parse (Body.bytes "[1,2,3,4,128,6]") = .bad ∧ JsonBody.parse (Body.bytes "[1,2,3,4,5.0,6]") = .bad ∧
    JsonBody.parse (Body.bytes "{\"x\":1,\"x\":1,\"y\":2,\"z\":3,\"yaw\":4,\"pitch\":5,\"roll\":6}") = .bad ∧
    JsonBody.parse (Body.bytes "{\"x\":1,\"y\":2,\"z\":3,\"yaw\":4,\"pitch\":5}") = .bad := by decide +kernel

/-- The hypotheses of `C86_whole`: documents that describe nothing. -/
example : Document (.arr []) (Body.bytes "[ ]") ∧ Document (.num [55]) (Body.bytes "7") ∧ ∀ p, ¬ Describes (.arr []) p ∧ ¬ Describes (.num [55]) p := by
  refine ⟨⟨[], _, [], rfl, by simp [Blank], .none (w := [32]) (by simp [Blank]), by simp [Blank]⟩,
    ⟨[], _, [], rfl, by simp [Blank], .num ⟨[], [55], [], [], rfl, .inl rfl, ⟨⟨by simp, ?_⟩, by simp⟩, .inl rfl, .inl rfl⟩, by simp [Blank]⟩,
    fun p => ⟨id, id⟩⟩
  intro c hc
  rw [List.mem_singleton] at hc
  subst hc
  exact ⟨by decide, by decide⟩

/-- A minus before a zero is refused. -/
example : JsonBody.parse (Body.bytes "[-0,2,3,4,5,6]") = .bad := by decide +kernel

/-- A body in full, most of it, and a part that ends in an ignored number. -/
example : JsonBody.parse (Body.bytes "{\"x\":1,\"y\":2,\"z\":3,\"yaw\":4,\"pitch\":5,\"roll\":6,\"t\":1.5}") = .ok ⟨1, 2, 3, 4, 5, 6⟩ ∧
    JsonBody.parse (Body.bytes "{\"x\":1,\"y\":2,\"z\":3,\"yaw\":4,\"pitch\":5,\"roll\":6,\"t\":1.5") = .eof ∧
    JsonBody.parse (Body.bytes "{\"x\":1,\"y\":2,\"z\":3,\"yaw\":4,\"pitch\":5,\"roll\":6,\"t\":1.") = .bad := by decide +kernel

/-- A NUL inside a number, a name and an escape. -/
example : route JsonBody.parse Body.path (some (Body.bytes "[1" ++ 0 :: [44, 50, 93])) = .now (.status 406) ∧
    route JsonBody.parse Body.path (some (Body.bytes "{\"\\u00" ++ 0 :: Body.bytes "9\":5")) = .now (.status 406) :=
  ⟨C86_stray Body.placing _ _ (by decide) (by decide) (by decide), C86_stray Body.placing _ _ (by decide) (by decide) (by decide)⟩

/-- The hypothesis of `C81_codes_partial` on the reader of bodies. -/
example : JsonBody.parse [] = .eof := by decide +kernel

example : JsonBody.parse (Body.bytes " fals") = .eof ∧ JsonBody.parse (Body.bytes "false") = .bad ∧
    JsonBody.parse (Body.bytes "fax") = .bad := by decide +kernel

end Pica.Props

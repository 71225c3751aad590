import Verif.Proofs.Editor
/-! What the server does with the requests of the page. -/

namespace Pica
open Spec Page

namespace JsonBody
open Spec.JsonText

/-- A number out of range is not read. -/
theorem number_out {lo hi n : Int} {w l r : Bytes} (hw : Blank w) (hl : Integer l n) (h : n < lo ∨ hi < n) (hr : Stop r) :
    number lo hi (w ++ (l ++ r)) = .error .bad := by
  unfold number
  rw [skip_blank hw]
  rcases hl with ⟨hl, hn⟩ | ⟨d, rfl, hd, h0, hn⟩
  · have hx := parseInteger_complete true hl hr
    obtain ⟨c, t, rfl, hc, ht⟩ := digits_cons hl.1
    rw [List.cons_append, skip_dark (digit_dark hc)]
    dsimp only
    rw [if_neg (fun e => digit_sign hc (.inr e)), if_pos hc, ← List.cons_append, hx, if_pos rfl, visit, if_neg (by omega)]
  · rw [List.cons_append, skip_dark (by decide)]
    dsimp only
    have := whole_pos hd h0
    rw [if_pos rfl, parseInteger_complete false hd hr, if_neg (by decide), if_neg (by omega), visit, if_neg (by omega)]

/-- A member of an object with this number. -/
def entry (f : Field) (n : Int) : Bytes := 34 :: (f.name ++ 34 :: 58 :: utf8 (WebText.integer n))

theorem member_entry (s : Seen) (f : Field) (hf : s f = none) {n : Int} {r : Bytes} (hr : Stop r) :
    (f.lo ≤ n → n ≤ f.hi → member s (utf8 f.text.toList) (58 :: (utf8 (WebText.integer n) ++ r)) = .ok (s.set f n, r)) ∧
    (n < f.lo ∨ f.hi < n → member s (utf8 f.text.toList) (58 :: (utf8 (WebText.integer n) ++ r)) = .error .bad) := by
  have hk : field (utf8 f.text.toList) = some f := by
    rw [name_utf8]; exact field_eq.mpr rfl
  have hc : colon (58 :: (utf8 (WebText.integer n) ++ r)) = .ok (utf8 (WebText.integer n) ++ r) := colon_complete blank_nil _
  constructor
  · intro h1 h2
    have := number_complete (w := []) blank_nil (integer_utf8 n) h1 h2 hr
    rw [List.nil_append] at this
    unfold member
    rw [hk]
    dsimp only
    rw [hf, if_neg (by decide), hc]
    dsimp only
    rw [this]
  · intro h
    have := number_out (w := []) blank_nil (integer_utf8 n) h hr
    rw [List.nil_append] at this
    unfold member
    rw [hk]
    dsimp only
    rw [hf, if_neg (by decide), hc]
    dsimp only
    rw [this]

theorem key_entry (f : Field) (r : Bytes) : key (f.name ++ 34 :: r) = .ok (utf8 f.text.toList, r) :=
  key_complete ((names_spell f f).mpr rfl) r

theorem parse_high (x y : Int) (r : Bytes) (hx : -32768 ≤ x ∧ x ≤ 32767) (hy : 32767 < y) :
    parse (123 :: (entry .x x ++ 44 :: (entry .y y ++ 44 :: r))) = .bad := by
  have s1 : Stop (44 :: (entry .y y ++ 44 :: r)) := .cons (.inr (.inl rfl))
  have s2 : Stop (44 :: r) := .cons (.inr (.inl rfl))
  have e1 : members (fun _ => none) true (entry .x x ++ 44 :: (entry .y y ++ 44 :: r)) =
      members (Seen.set (fun _ => none) .x x) false (44 :: (entry .y y ++ 44 :: r)) := by
    refine members_step (t := Field.x.name ++ 34 :: (58 :: (utf8 (WebText.integer x) ++ 44 :: (entry .y y ++ 44 :: r))))
      ?_ (key_entry _ _) ((member_entry _ .x rfl s1).1 hx.1 hx.2)
    have := nextKey_first (w := []) blank_nil (Field.x.name ++ 34 :: (58 :: (utf8 (WebText.integer x) ++ 44 :: (entry .y y ++ 44 :: r))))
    simpa [entry] using this
  have e2 : members (Seen.set (fun _ => none) .x x) false (44 :: (entry .y y ++ 44 :: r)) = .error .bad := by
    rw [members_eq]
    have := nextKey_more (w := []) (w' := []) blank_nil blank_nil
      (Field.y.name ++ 34 :: (58 :: (utf8 (WebText.integer y) ++ 44 :: r)))
    have h1 : nextKey false (44 :: (entry .y y ++ 44 :: r)) =
        .ok (some (Field.y.name ++ 34 :: (58 :: (utf8 (WebText.integer y) ++ 44 :: r)))) := by
      simpa [entry] using this
    rw [h1]
    dsimp only
    rw [key_entry]
    dsimp only
    rw [(member_entry _ .y (by simp [Seen.set]) s2).2 (.inr hy)]
  unfold parse body
  rw [skip_dark (by decide)]
  dsimp only
  rw [if_neg (by decide), if_pos rfl, e1, e2]

end JsonBody

namespace Editor
open JsonBody in
theorem request_text (m : Marker) : ∃ r, m.request.2 =
    123 :: (entry .x m.x ++ 44 :: (entry .y m.y ++ 44 :: r)) := by
  have q : String.utf8EncodeChar '"' = [34] := by decide +kernel
  have c : String.utf8EncodeChar ':' = [58] := by decide +kernel
  have d : String.utf8EncodeChar ',' = [44] := by decide +kernel
  have l : String.utf8EncodeChar '{' = [123] := by decide +kernel
  have n1 : utf8 "x".toList = Field.x.name := by decide +kernel
  have n2 : utf8 "y".toList = Field.y.name := by decide +kernel
  have n3 : utf8 "z".toList = Field.z.name := by decide +kernel
  have n4 : utf8 "yaw".toList = Field.yaw.name := by decide +kernel
  have n5 : utf8 "pitch".toList = Field.pitch.name := by decide +kernel
  have n6 : utf8 "roll".toList = Field.roll.name := by decide +kernel
  have r : String.utf8EncodeChar '}' = [125] := by decide +kernel
  refine ⟨entry .z m.z ++ 44 :: (entry .yaw m.yaw ++ 44 :: (entry .pitch m.pitch ++ 44 :: (entry .roll m.roll ++ [125]))), ?_⟩
  show utf8 _ = _
  simp only [WebText.object, WebText.commas, WebText.string, List.map_cons, List.map_nil, utf8_cons, utf8_append,
    List.cons_append, q, c, d, l, r, n1, n2, n3, n4, n5, n6, List.nil_append, List.append_assoc, entry]
  rfl

theorem request_placing {m : Marker} {a : MacAddress} (ha : m.mac = macText a) :
    Props.Placing m.request.1 "set-position" a := by
  refine ⟨?_, .inr (.inl rfl), macText a, ⟨1, ?_, ?_⟩, ?_⟩
  · intro hm
    have : ∀ q ∈ staticPaths, q.take 5 ≠ "/set-".toList := by decide
    exact this _ hm rfl
  · show "/set-position/".toList ++ m.mac = _
    rw [ha]
    rfl
  · intro t ht
    cases ht
    exact macText_slash a
  · rw [WebText.macText_eq]
    exact Props.C01_parse_display a

/-- The server refuses an elevation above 32767. -/
theorem request_high {m : Marker} (h : m.Ranged) (hy : 32767 < m.y) :
    route JsonBody.parse m.request.1 (some m.request.2) = .now (.status 406) := by
  obtain ⟨a, ha⟩ := h.mac
  obtain ⟨r, hr⟩ := request_text m
  rw [Props.placing_route (request_placing ha), hr, JsonBody.parse_high _ _ _ h.x hy]

/-- What a new position does to the registry. -/
theorem place_map {mac : MacAddress} {p : Position} {m : AMap Nat Info} (hn : ((AMap.values m).map Info.mac).Nodup) :
    (match Web.place mac p m with | some z => z.1 | none => m) =
      m.map fun e => if e.2.mac = mac then (e.1, { e.2 with position := p }) else e := by
  induction m with
  | nil => rfl
  | cons e m ih =>
    obtain ⟨k, i⟩ := e
    have hn' : ((AMap.values m).map Info.mac).Nodup := (List.nodup_cons.mp hn).2
    have hi : i.mac ∉ (AMap.values m).map Info.mac := (List.nodup_cons.mp hn).1
    unfold Web.place
    rw [List.map_cons]
    by_cases he : i.mac = mac
    · rw [if_pos he]
      dsimp only
      rw [if_pos he]
      congr 1
      symm
      conv_rhs => rw [← List.map_id m]
      refine List.map_congr_left fun e h => ?_
      rw [if_neg]
      · rfl
      · rintro h2
        refine hi ?_
        rw [he, ← h2]
        exact List.mem_map_of_mem (AMap.mem_values.mpr ⟨e.1, h⟩)
    · rw [if_neg he]
      dsimp only
      rw [if_neg he, ← ih hn']
      cases Web.place mac p m <;> rfl

theorem setPosition_map {measure : Measure} {heard : Nat → Bool} {w : Web} {mac : MacAddress} {p : Position}
    (hw : w.poisoned = false) (hn : ((AMap.values w.devices).map Info.mac).Nodup) :
    (w.setPosition measure heard mac p).1.devices =
      w.devices.map fun e => if e.2.mac = mac then (e.1, { e.2 with position := p }) else e := by
  rw [← place_map hn]
  unfold Web.setPosition
  rw [hw]
  simp only [Bool.false_eq_true, if_false]
  split
  · rename_i h; rw [h]
  · rename_i h; rw [h]
    dsimp only
    split
    · split <;> rfl
    · rfl

/-- What a request of the page does. -/
theorem request_step {measure : Measure} {euler : Euler} {s t : Editor} {i : Nat} {q : Text × Bytes} {a : MacAddress} {p : Position}
    (hst : Step measure euler s (.request i) t) (hq : s.requests[i]? = some q)
    (hr : route JsonBody.parse q.1 (some q.2) = .setPosition a p) (hw : s.world.web.poisoned = false)
    (hn : ((AMap.values s.world.web.devices).map Info.mac).Nodup) :
    t.requests = s.requests.eraseIdx i ∧ t.selected = s.selected ∧ t.world.page = s.world.page ∧
      t.world.web.devices =
        s.world.web.devices.map fun e => if e.2.mac = a then (e.1, { e.2 with position := p }) else e := by
  cases hst with
  | request h1 h2 h3 =>
  rename_i path body heard web es reply
  rw [hq] at h1
  cases h1
  dsimp only at hr
  rw [hr] at h3
  have h3 : s.world.web.setPosition measure heard a p = (web, es, reply) := Option.some.inj h3
  refine ⟨rfl, rfl, rfl, ?_⟩
  have := setPosition_map (measure := measure) (heard := heard) (mac := a) (p := p) hw hn
  rw [h3] at this
  exact this

theorem handle_frame (s : Editor) (m : Text × Option Spec.Json.Value) :
    (s.handle m).requests = s.requests ∧ (s.handle m).world.web = s.world.web := by
  unfold handle
  split
  · exact ⟨rfl, rfl⟩
  · dsimp only
    refine ⟨?_, rfl⟩
    split
    · split <;> rfl
    · rfl

theorem handles_frame (ms : List (Text × Option Spec.Json.Value)) (s : Editor) :
    (ms.foldl handle s).requests = s.requests ∧ (ms.foldl handle s).world.web = s.world.web := by
  induction ms generalizing s with
  | nil => exact ⟨rfl, rfl⟩
  | cons m ms ih =>
    have h1 := handle_frame s m
    have h2 := ih (s.handle m)
    exact ⟨h2.1.trans h1.1, h2.2.trans h1.2⟩

theorem put_frame (s : Editor) (f : Marker → Marker) (r : Ref) :
    (s.put f r).requests = s.requests ∧ (s.put f r).world.web = s.world.web := by
  cases r <;> exact ⟨rfl, rfl⟩

theorem move_frame (s : Editor) (x y : Rat) (d : Int) :
    (s.move x y d).requests = s.requests ∧ (s.move x y d).world.web = s.world.web := by
  unfold move
  split
  · split
    · exact ⟨rfl, rfl⟩
    · rename_i r _
      dsimp only
      have h1 := put_frame s (Marker.drag x y) r
      split
      · split
        · have h2 := put_frame (s.put (Marker.drag x y) r) (Marker.lift d) r
          exact ⟨h2.1.trans h1.1, h2.2.trans h1.2⟩
        · exact h1
      · split
        · exact put_frame s (Marker.lift d) r
        · exact ⟨rfl, rfl⟩
  · exact ⟨rfl, rfl⟩

end Editor
end Pica

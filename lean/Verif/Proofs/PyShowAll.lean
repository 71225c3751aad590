import Verif.Proofs.PyShowObj
import Verif.Proofs.PyRoundTrip
/-!
The text of an object tells what is visible of it, and which objects are printed to the end.
-/

namespace Pica.PyShow
open Spec Py

/-! ### Objects by their text -/

theorem name_newline (c : Class) : '\n' ∉ c.name.toList := by cases c <;> decide

theorem show_eq (o : Obj) : ∃ vs, o.value = .obj (classOf o) vs ∧ TypedFields (classOf o).fields vs ∧
    o.show = (printed (classOf o).name.toList).then (showFields [] (classOf o).align (classOf o).fields vs) := by
  obtain ⟨vs, h1, h2⟩ := typed_obj o
  exact ⟨vs, h1, h2, by rw [Obj.show, h1]; rfl⟩

/-- The text of an object tells its class and all that is visible of it. -/
theorem show_told {o o' : Obj} (hr : o.show.returned = true) (hr' : o'.show.returned = true) (h : o.show.text = o'.show.text) :
    visible o = visible o' := by
  obtain ⟨vs, e1, e2, e3⟩ := show_eq o
  obtain ⟨vs', f1, f2, f3⟩ := show_eq o'
  rw [e3] at hr h
  rw [f3] at hr' h
  obtain ⟨-, hs, ht⟩ := then_returned hr
  obtain ⟨-, hs', ht'⟩ := then_returned hr'
  rw [ht, ht'] at h
  simp only [printed, List.append_assoc, List.singleton_append] at h
  obtain ⟨hn, hf⟩ := split_at (name_newline _) (name_newline _) h
  have hc : classOf o = classOf o' := name_inj (String.toList_inj.mp hn)
  rw [← hc] at hs' hf f1 f2
  obtain ⟨x, fs, hx, hn⟩ := fields_head (classOf o)
  have key := showHead_told [] (classOf o).align x fs vs vs' [] [] hn (hx ▸ e2) (hx ▸ f2) (hx ▸ hs) (hx ▸ hs') (.inl rfl) (.inl rfl)
    (by rw [← hx]; simpa using hf)
  apply told_obj o o' hc
  rw [e1, f1]
  simp only [hide, hx, key.1]

/-- The payload and the time stamps are not printed. -/
theorem hide_visible (o : Obj) : classOf (visible o) = classOf o ∧
    hide (.struct (classOf o)) (visible o).value = hide (.struct (classOf o)) o.value := by
  cases o
  case command c => cases c <;> exact ⟨rfl, rfl⟩
  case shortMacDlTDoASessionInfoNtf n t r i l =>
    refine ⟨rfl, ?_⟩
    simp only [classOf, visible, Obj.value, Obj.code, grouped, infoFields, hide, hideFields, Class.fields, sessionInfoNtfFields,
      sessionControlPacketFields, controlPacketFields, packetFields, List.cons_append, List.nil_append, hideList_map, List.map_map]
    rfl
  case extendedMacDlTDoASessionInfoNtf n t r i l =>
    refine ⟨rfl, ?_⟩
    simp only [classOf, visible, Obj.value, Obj.code, grouped, infoFields, hide, hideFields, Class.fields, sessionInfoNtfFields,
      sessionControlPacketFields, controlPacketFields, packetFields, List.cons_append, List.nil_append, hideList_map, List.map_map]
    rfl
  all_goals exact ⟨rfl, rfl⟩

theorem show_visible (o : Obj) : (visible o).show = o.show := by
  obtain ⟨vs, e1, e2, e3⟩ := show_eq o
  obtain ⟨vs', f1, f2, f3⟩ := show_eq (visible o)
  obtain ⟨hc, hh⟩ := hide_visible o
  rw [e1, f1, hc] at hh
  simp only [hide, Val.obj.injEq, true_and] at hh
  rw [e3, f3, hc, ← showFields_hide _ _ _ vs', ← showFields_hide _ _ _ vs, hh]

end Pica.PyShow

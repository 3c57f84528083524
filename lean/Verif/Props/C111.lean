import Verif.Model.FixMsg
import Verif.Props.C28
import Verif.Props.C30
/-!
# C111: what fixing a footprint logs
-/

namespace Verif
open Flt Fp Spec

variable {F : Type} [Flt F]

namespace Spec

/-- The record of a courtyard with the given corners. -/
def courtyardNotice (x1 y1 x2 y2 : F) : Prog.Record :=
  (.info, str! "Creating courtyard: " ++ (toStr x1 ++ ',' :: (toStr y1 ++ ' ' :: '-' :: '>' :: ' ' ::
    (toStr x2 ++ ',' :: toStr y2))))

end Spec

/-- The box, after the earlier steps of `fix`, is that of the footprint as it was. -/
theorem Fp.fixed_parts (m : Module F) (cfg : Config F) :
    courtyardCount (fixPlacement (fixTexts cfg m)) = courtyardCount m ∧
    courtyardBox (fixPlacement (fixTexts cfg m)) = courtyardBox m := by
  have e1 : (fixTexts cfg m).elements = keptElems cfg m ++ addedText cfg m := fixTexts_eq cfg m
  have h2 : fixPlacement (fixTexts cfg m) =
      ⟨m.name, keptElems cfg m ++ addedText cfg m ++ addedAttr m⟩ := by
    rw [fixPlacement_eq, addedAttr_fixTexts, e1]; rfl
  have hn : nt (keptElems cfg m ++ addedText cfg m) = nt m.elements := by
    rw [← e1]; exact nt_fixTexts cfg m
  rw [h2]
  constructor
  · simp only [courtyardCount]
    rw [lines_append, addedAttr_lines, List.append_nil,
      lines_eq_of_nt (a := Module.mk m.name (keptElems cfg m ++ addedText cfg m)) (b := m) hn]
  · have hb : (Module.mk m.name (keptElems cfg m ++ addedText cfg m ++ addedAttr m)).bound = m.bound := by
      rw [bound_append_attr,
        bound_eq_of_nt (a := Module.mk m.name (keptElems cfg m ++ addedText cfg m)) (b := m) hn]
    have ha : (Module.mk m.name (keptElems cfg m ++ addedText cfg m ++ addedAttr m)).at_ = m.at_ := by
      rw [at_append_attr,
        at_eq_of_nt (a := Module.mk m.name (keptElems cfg m ++ addedText cfg m)) (b := m) hn]
    simp only [courtyardBox, courtyardOffset, hb, ha]

/-- Logging does not change what `fix` does. -/
theorem C111_same_fix (m : Module F) (cfg : Config F) : (m.fixTold cfg).1 = m.fix cfg := by
  simp only [Module.fixTold, fixCourtyardTold, Module.fix, fixCourtyard]
  split <;> rfl

/-- A footprint with at least four courtyard lines is fixed in silence. -/
theorem C111_silent (m : Module F) (cfg : Config F) (h : 4 ≤ (courtyard m).length) :
    (m.fixTold cfg).2 = [] := by
  rw [← Fp.courtyardCount_eq] at h
  rw [Module.fixTold, fixCourtyardTold, (Fp.fixed_parts m cfg).1, if_neg (by omega)]

/-- For any other exactly one record is logged, and it names the corners of the rectangle that is
drawn at the end of the footprint. -/
theorem C111_notice (m : Module F) (cfg : Config F) (h : (courtyard m).length < 4) :
    ∃ (pre : List (Elem F)) (x1 y1 x2 y2 : F),
      (m.fix cfg).elements = pre ++ rectangle x1 y1 x2 y2 ∧
      (m.fixTold cfg).2 = [courtyardNotice x1 y1 x2 y2] := by
  rw [← Fp.courtyardCount_eq] at h
  refine ⟨keptElems cfg m ++ addedText cfg m ++ addedAttr m, (courtyardBox m).1,
    (courtyardBox m).2.1, (courtyardBox m).2.2.1, (courtyardBox m).2.2.2, ?_, ?_⟩
  · rw [fix_eq, addedLines, if_pos h]; rfl
  · obtain ⟨h1, h2⟩ := Fp.fixed_parts m cfg
    rw [Module.fixTold, fixCourtyardTold, h1, if_pos h]
    simp only [courtyardRecord, h2, courtyardNotice, List.append_assoc, List.cons_append,
      List.nil_append]

/-- Fixing again is silent. -/
theorem C111_once (m : Module F) (cfg : Config F) : ((m.fix cfg).fixTold cfg).2 = [] := by
  refine C111_silent _ cfg ?_
  by_cases h : (courtyard m).length < 4
  · obtain ⟨pre, x1, y1, x2, y2, he, _⟩ := C111_notice m cfg h
    rw [courtyard, he, List.filter_append, List.length_append]
    exact Nat.le_add_left 4 _
  · have h' : 4 ≤ courtyardCount (m.fix cfg) := by
      rw [← Fp.courtyardCount_eq] at h
      rw [Module.fix, fixCourtyard, (Fp.fixed_parts m cfg).1, if_neg h, (Fp.fixed_parts m cfg).1]
      omega
    rwa [Fp.courtyardCount_eq] at h'

/-- The record is never wrong about what happened: it is logged exactly if the number of courtyard
lines grew. -/
theorem C111_iff (m : Module F) (cfg : Config F) :
    (m.fixTold cfg).2 ≠ [] ↔ (courtyard m).length < (courtyard (m.fix cfg)).length := by
  rw [← Fp.courtyardCount_eq, ← Fp.courtyardCount_eq]
  by_cases h : courtyardCount m < 4
  · have h4 := C111_once m cfg
    obtain ⟨pre, x1, y1, x2, y2, he, hn⟩ := C111_notice m cfg (by rwa [← Fp.courtyardCount_eq])
    have : 4 ≤ courtyardCount (m.fix cfg) := by
      rw [Fp.courtyardCount_eq, courtyard, he, List.filter_append, List.length_append]
      exact Nat.le_add_left 4 _
    rw [hn]
    exact ⟨fun _ => by omega, fun _ => List.cons_ne_nil _ _⟩
  · rw [C111_silent m cfg (by rw [← Fp.courtyardCount_eq]; omega)]
    have : courtyardCount (m.fix cfg) = courtyardCount m := by
      rw [Module.fix, fixCourtyard, (Fp.fixed_parts m cfg).1, if_neg h, (Fp.fixed_parts m cfg).1]
    exact ⟨fun x => absurd rfl x, fun x => by omega⟩

theorem Spec.cut_at {c : Char} : ∀ {a a' b b' : Str}, c ∉ a → c ∉ a' → a ++ c :: b = a' ++ c :: b' →
    a = a' ∧ b = b'
  | [], [], _, _, _, _, h => ⟨rfl, (List.cons.inj h).2⟩
  | [], x :: a', _, _, _, h2, h => by
    obtain ⟨rfl, _⟩ := List.cons.inj h
    exact absurd (List.mem_cons_self ..) h2
  | x :: a, [], _, _, h1, _, h => by
    obtain ⟨rfl, _⟩ := List.cons.inj h
    exact absurd (List.mem_cons_self ..) h1
  | x :: a, y :: a', _, _, h1, h2, h => by
    obtain ⟨rfl, h'⟩ := List.cons.inj h
    obtain ⟨e, e'⟩ := Spec.cut_at (fun m => h1 (List.mem_cons_of_mem _ m))
      (fun m => h2 (List.mem_cons_of_mem _ m)) h'
    exact ⟨by rw [e], e'⟩

/-- The corners can be recovered from the record: equal records mean equal rectangles. -/
theorem C111_exact [TextLaws F] (x1 y1 x2 y2 u1 v1 u2 v2 : F)
    (h : courtyardNotice x1 y1 x2 y2 = courtyardNotice u1 v1 u2 v2) :
    rectangle x1 y1 x2 y2 = rectangle u1 v1 u2 v2 := by
  have hc : ∀ x : F, ',' ∉ toStr x := fun x hx => absurd (TextLaws.toStr_chars x _ hx) (by decide)
  have hs : ∀ x : F, ' ' ∉ toStr x := fun x hx => absurd (TextLaws.toStr_chars x _ hx) (by decide)
  have hi : ∀ a b : F, toStr a = toStr b → a = b := by
    intro a b e
    have := TextLaws.ofStr_toStr a
    rw [e, TextLaws.ofStr_toStr] at this
    exact (Option.some.inj this).symm
  have h' := List.append_cancel_left (congrArg Prod.snd h)
  obtain ⟨e1, h'⟩ := Spec.cut_at (hc _) (hc _) h'
  obtain ⟨e2, h'⟩ := Spec.cut_at (hs _) (hs _) h'
  simp only [List.cons.injEq, true_and] at h'
  obtain ⟨e3, e4⟩ := Spec.cut_at (hc _) (hc _) h'
  rw [hi _ _ e1, hi _ _ e2, hi _ _ e3, hi _ _ e4]

/-- A footprint with one pad and no courtyard. -/
example : (courtyard (⟨str! "R", [.pad (Pad.new (str! "1") .smd .rect)]⟩ : Module Nm)).length < 4 := by
  decide

/-- What fixing it logs. -/
example : ((⟨str! "R", [.pad (Pad.new (str! "1") .smd .rect)]⟩ : Module Nm).fixTold Config.klc).2 =
    [(.info, str! "Creating courtyard: -0.15,-0.15 -> 0.15,0.15")] := by decide +kernel

end Verif

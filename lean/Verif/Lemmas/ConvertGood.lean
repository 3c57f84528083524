import Verif.Lemmas.Convert
import Verif.Spec.LayoutFile
import Verif.Spec.SchematicFile
import Verif.Spec.SymbolFile
/-!
# What can be saved does not depend on the machine
-/

namespace Verif
open Flt Spec

variable {C F G : Type} [Flt F] [Flt G] [ZeroLaws F] [ZeroLaws G] {f : C → F} {g : C → G}

namespace Alike

theorem zero_iff (h : Alike f g) (c : C) : f c = zero ↔ g c = zero := by
  rw [← ZeroLaws.feq_zero, ← ZeroLaws.feq_zero, h.isZero]

theorem goodFont (h : Alike f g) {x : Fp.Font C} (hg : GoodFont (x.conv f)) : GoodFont (x.conv g) := by
  unfold GoodFont Fp.Font.conv Fp.Xy.conv at *
  dsimp only at *
  rw [← h.pos, ← h.pos, ← h.zero_iff, ← h.zero_iff]
  exact hg

theorem goodDrill (h : Alike f g) (hi : Function.Injective f) {x : Fp.Drill C} (hg : GoodDrill (x.conv f)) :
    GoodDrill (x.conv g) := by
  unfold GoodDrill Fp.Drill.conv at *
  dsimp only at *
  rw [← h.pos, ← h.pos, ← h.apart]
  refine ⟨hg.1, hg.2.1, hg.2.2.imp (fun e => ?_) id⟩
  rw [hi e]

theorem goodElem (h : Alike f g) (hi : Function.Injective f) {e : Fp.Elem C} (hg : GoodElem (e.conv f)) :
    GoodElem (e.conv g) := by
  cases e with
  | text t => exact ⟨hg.1, h.goodFont hg.2⟩
  | pad p =>
    obtain ⟨h1, h2, h3, h4, h5, h6⟩ := hg
    refine ⟨h1, ?_, h3, h4, h5, ?_⟩
    · have : p.rectDelta.map (Fp.Xy.conv f) = none := h2
      show p.rectDelta.map (Fp.Xy.conv g) = none
      rw [Option.map_eq_none_iff] at this ⊢
      exact this
    · intro d hd
      have hd' : p.drill.map (Fp.Drill.conv g) = some d := hd
      rw [Option.map_eq_some_iff] at hd'
      obtain ⟨x, hx, rfl⟩ := hd'
      exact h.goodDrill hi (h6 (x.conv f) (by
        show p.drill.map _ = _
        rw [hx]; rfl))
  | _ => exact hg

omit [ZeroLaws F] [ZeroLaws G] [Flt F] [Flt G] in
theorem strings_conv (f : C → F) (e : Fp.Elem C) : strings (e.conv f) = strings e := by
  cases e <;> rfl

theorem goodModule (h : Alike f g) (hi : Function.Injective f) {m : Fp.Module C} (hg : GoodModule (m.conv f)) :
    GoodModule (m.conv g) := by
  refine ⟨hg.1, ?_⟩
  intro e he
  obtain ⟨x, hx, rfl⟩ := List.mem_map.1 he
  have := hg.2 (x.conv f) (List.mem_map_of_mem hx)
  refine ⟨h.goodElem hi this.1, ?_⟩
  rw [strings_conv] at this ⊢
  exact this.2

theorem goodBoardElem (h : Alike f g) (hi : Function.Injective f) {e : Lay.Elem C} (hg : GoodBoardElem (e.conv f)) :
    GoodBoardElem (e.conv g) := by
  cases e with
  | module_ m =>
    intro e he
    obtain ⟨x, hx, rfl⟩ := List.mem_map.1 he
    exact h.goodElem hi (hg (x.conv f) (List.mem_map_of_mem hx))
  | grText t => exact ⟨hg.1, h.goodFont hg.2⟩
  | dimension d => exact ⟨hg.1, hg.2.1, h.goodFont hg.2.2⟩
  | _ => exact hg

theorem savable (h : Alike f g) (hi : Function.Injective f) {l : Lay.Layout C} (hg : SavableLayout (l.conv f)) :
    SavableLayout (l.conv g) := by
  refine ⟨hg.1, hg.2.1, hg.2.2.1, hg.2.2.2.1, ?_⟩
  intro e he
  obtain ⟨x, hx, rfl⟩ := List.mem_map.1 he
  exact h.goodBoardElem hi (hg.2.2.2.2 (x.conv f) (List.mem_map_of_mem hx))

omit [ZeroLaws F] [ZeroLaws G] [Flt F] [Flt G] in
theorem boardStrings_conv (f : C → F) (e : Lay.Elem C) : boardStrings (e.conv f) = boardStrings e := by
  cases e with
  | module_ m =>
    show _ :: ((m.elements.map (Fp.Elem.conv f)).flatMap strings) = _ :: m.elements.flatMap strings
    rw [List.flatMap_map]
    simp only [strings_conv]
    rfl
  | _ => rfl

omit [ZeroLaws F] [ZeroLaws G] [Flt F] [Flt G] in
theorem boardTrees_conv (f : C → F) (e : Lay.Elem C) : boardTrees (e.conv f) = boardTrees e := by
  cases e <;> rfl

omit [ZeroLaws F] [ZeroLaws G] [Flt F] [Flt G] in
theorem clean (f : C → F) {l : Lay.Layout C} (hg : CleanLayout l) : CleanLayout (l.conv f) := by
  refine ⟨hg.1, ?_⟩
  intro e he
  obtain ⟨x, hx, rfl⟩ := List.mem_map.1 he
  rw [boardStrings_conv, boardTrees_conv]
  exact hg.2 x hx

omit [ZeroLaws F] [ZeroLaws G] [Flt F] [Flt G] in
theorem fitsSchematic (f : C → F) {s : Sch.Schematic C} (h : FitsSchematic s) : FitsSchematic (s.conv f) := by
  refine ⟨h.1, h.2.1, h.2.2.1, h.2.2.2.1, ?_, h.2.2.2.2.2⟩
  intro e he
  obtain ⟨x, hx, rfl⟩ := List.mem_map.1 he
  have := h.2.2.2.2.1 x hx
  cases x with
  | component c =>
    obtain ⟨h1, h2, h3, h4, h5, h6, h7, h8, h9⟩ := this
    refine ⟨h1, h2, h3, h4, h5, h6, h7, ?_, h9⟩
    intro y hy
    obtain ⟨z, hz, rfl⟩ := List.mem_map.1 hy
    exact h8 z hz
  | _ => exact this

omit [ZeroLaws F] [ZeroLaws G] [Flt F] [Flt G] in
theorem fitsLib (f : C → F) {l : Lib.SymbolLib C} (h : FitsLib l) : FitsLib (l.conv f) := by
  intro s hs
  obtain ⟨x, hx, rfl⟩ := List.mem_map.1 hs
  obtain ⟨⟨h1, h2, h3, h4, h5, h6, h7⟩, he⟩ := h x hx
  refine ⟨⟨h1, h2, h3, ?_, ?_, h6, h7⟩, he⟩
  · show 2 ≤ (x.fields.map _).length
    rw [List.length_map]; exact h4
  · intro y hy
    obtain ⟨z, hz, rfl⟩ := List.mem_map.1 hy
    exact h5 z hz

omit [ZeroLaws F] [ZeroLaws G] [Flt F] [Flt G] in
theorem hasBold (f : C → F) {l : Lib.SymbolLib C} (h : ¬ HasBold l) : ¬ HasBold (l.conv f) := by
  rintro ⟨s, hs, x, hx, hb⟩
  obtain ⟨s', hs', rfl⟩ := List.mem_map.1 hs
  obtain ⟨x', hx', rfl⟩ := List.mem_map.1 hx
  exact h ⟨s', hs', x', hx', hb⟩

end Alike

end Verif

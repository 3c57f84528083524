import Verif.Spec.ExactNumbers
/-!
# Replacing numbers twice
-/

namespace Verif
variable {A B C : Type} (f : A → B) (g : B → C)

namespace Fp

theorem Xy.conv_conv (x : Xy A) : (x.conv f).conv g = x.conv fun a => g (f a) := rfl

theorem Pad.conv_conv (x : Pad A) : (x.conv f).conv g = x.conv fun a => g (f a) := by
  simp [Pad.conv, Drill.conv, Xy.conv, At.conv, Option.map_map, Function.comp_def]
  exact ⟨rfl, rfl⟩

theorem FpPoly.conv_conv (x : FpPoly A) : (x.conv f).conv g = x.conv fun a => g (f a) := by
  simp [FpPoly.conv, Xy.conv, Function.comp_def]

theorem Elem.conv_conv (x : Elem A) : (x.conv f).conv g = x.conv fun a => g (f a) := by
  cases x <;> first | rfl | exact congrArg _ (Pad.conv_conv f g _) | exact congrArg _ (FpPoly.conv_conv f g _)

theorem Module.conv_conv (x : Module A) : (x.conv f).conv g = x.conv fun a => g (f a) := by
  simp [Module.conv, Elem.conv_conv, Function.comp_def]

end Fp

namespace Lay

theorem convPts_convPts (l : List (Fp.Xy A)) : convPts g (convPts f l) = convPts (fun a => g (f a)) l := by
  simp [convPts, Fp.Xy.conv_conv, Function.comp_def]

theorem Elem.conv_conv (x : Elem A) : (x.conv f).conv g = x.conv fun a => g (f a) := by
  cases x with
  | module_ m => exact congrArg _ (Fp.Module.conv_conv f g m)
  | netClass n => simp [Elem.conv, NetClass.conv, Option.map_map, Function.comp_def]
  | dimension d => simp [Elem.conv, Dimension.conv, convPts_convPts]; rfl
  | zone z => simp [Elem.conv, Zone.conv, convPts_convPts, Function.comp_def]; exact ⟨rfl, rfl, rfl⟩
  | _ => rfl

theorem Layout.conv_conv (x : Layout A) : (x.conv f).conv g = x.conv fun a => g (f a) := by
  simp [Layout.conv, Elem.conv_conv, Function.comp_def]; rfl

end Lay

namespace Sch

theorem Element.conv_conv (x : Element A) : (x.conv f).conv g = x.conv fun a => g (f a) := by
  cases x with
  | component c => simp [Element.conv, Component.conv, Function.comp_def]; exact fun _ _ => rfl
  | _ => rfl

theorem Schematic.conv_conv (x : Schematic A) : (x.conv f).conv g = x.conv fun a => g (f a) := by
  simp [Schematic.conv, Element.conv_conv, Function.comp_def]

end Sch

namespace Lib

theorem Symbol.conv_conv (x : Symbol A) : (x.conv f).conv g = x.conv fun a => g (f a) := by
  simp [Symbol.conv, Function.comp_def]; exact fun _ _ => rfl

theorem SymbolLib.conv_conv (x : SymbolLib A) : (x.conv f).conv g = x.conv fun a => g (f a) := by
  simp [SymbolLib.conv, Symbol.conv_conv, Function.comp_def]

end Lib

end Verif

import Verif.Spec.Layout
import Verif.Basic.Nm
/-!
# C46: adding nets and net classes
-/

set_option linter.unusedSectionVars false

namespace Verif
open Flt Spec Lay

variable {F : Type} [Flt F]

/-- After `add_net` the layout has the new net after all earlier ones; all
elements it had are still there, in the same order; modules, net classes and
everything outside the element list are as before. -/
theorem C46_add_net (l : Layout F) (num : Int) (name : Str) :
    (l.addNet num name).nets = l.nets ++ [⟨num, name⟩] ∧
    (l.addNet num name).netclasses = l.netclasses ∧
    (l.addNet num name).getModules = l.getModules ∧
    l.elements <+: (l.addNet num name).elements ∧
    { l.addNet num name with elements := l.elements } = l := by
  refine ⟨?_, ?_, ?_, ?_, rfl⟩ <;>
    simp [Layout.addNet, Layout.nets, Layout.netclasses, Layout.getModules]

/-- The same for net classes. -/
theorem C46_add_netclass (l : Layout F) (nc : NetClass F) :
    (l.addNetclass nc).netclasses = l.netclasses ++ [nc] ∧
    (l.addNetclass nc).nets = l.nets ∧
    (l.addNetclass nc).getModules = l.getModules ∧
    l.elements <+: (l.addNetclass nc).elements ∧
    { l.addNetclass nc with elements := l.elements } = l := by
  refine ⟨?_, ?_, ?_, ?_, rfl⟩ <;>
    simp [Layout.addNetclass, Layout.nets, Layout.netclasses, Layout.getModules]

/-- What the three listings contain: exactly the elements of their kind, and in
the order of the file (a sublist once wrapped again). -/
theorem C46_listings (l : Layout F) :
    (∀ n, n ∈ l.nets ↔ Elem.net n ∈ l.elements) ∧
    (∀ n, n ∈ l.netclasses ↔ Elem.netClass n ∈ l.elements) ∧
    (∀ m, m ∈ l.getModules ↔ Elem.module_ m ∈ l.elements) ∧
    (l.nets.map Elem.net).Sublist l.elements ∧
    (l.netclasses.map Elem.netClass).Sublist l.elements ∧
    (l.getModules.map Elem.module_).Sublist l.elements := by
  simp only [Layout.nets, Layout.netclasses, Layout.getModules]
  generalize l.elements = es
  induction es with
  | nil => simp
  | cons e es ih =>
    obtain ⟨h1, h2, h3, h4, h5, h6⟩ := ih
    cases e <;> simp_all

example : ((sampleBoard : Layout Nm).addNet 2 (str! "vcc")).nets =
    [⟨1, str! "/a/gnd"⟩, ⟨2, str! "vcc"⟩] := by decide +kernel

end Verif

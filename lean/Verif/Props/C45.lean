import Verif.Model.Layout.Data
import Verif.Basic.Nm
/-!
# C45: comparing net classes without their nets
-/

namespace Verif
open Flt Lay

variable {F : Type} [Flt F]

/-- `equal_no_net` holds exactly if the two classes agree once they are given the
same nets. -/
theorem C45_equal_iff [EqLaws F] (a b : NetClass F) :
    a.equalNoNet b = true ↔ a = { b with nets := a.nets } := by
  have E := @EqLaws.feq_iff F _ _
  have O : ∀ x y : Option F, Fp.optEq feq x y = true ↔ x = y := by
    intro x y; cases x <;> cases y <;> simp [Fp.optEq, E]
  obtain ⟨⟩ := a
  obtain ⟨⟩ := b
  simp [NetClass.equalNoNet, NetClass.eq, E, O, and_assoc]

example : ∃ a b : NetClass Nm, a ≠ b ∧ a.equalNoNet b = true :=
  ⟨⟨[], [], ⟨1⟩, ⟨1⟩, ⟨1⟩, ⟨1⟩, ⟨1⟩, ⟨1⟩, none, none, [str! "a"]⟩,
   ⟨[], [], ⟨1⟩, ⟨1⟩, ⟨1⟩, ⟨1⟩, ⟨1⟩, ⟨1⟩, none, none, []⟩, by decide⟩

/-- It is an equivalence relation. -/
theorem C45_equivalence [EqLaws F] (a b c : NetClass F) :
    a.equalNoNet a = true ∧ a.equalNoNet b = b.equalNoNet a ∧
    (a.equalNoNet b = true → b.equalNoNet c = true → a.equalNoNet c = true) := by
  refine ⟨(C45_equal_iff a a).2 rfl, ?_, ?_⟩
  · rw [Bool.eq_iff_iff, C45_equal_iff, C45_equal_iff]
    constructor <;> intro h <;> rw [h]
  · rw [C45_equal_iff, C45_equal_iff, C45_equal_iff]
    intro h1 h2
    rw [h1, h2]

/-- The nets play no role. -/
theorem C45_nets_ignored (a b : NetClass F) (n m : List Str) :
    NetClass.equalNoNet { a with nets := n } { b with nets := m } = a.equalNoNet b := rfl

omit [Flt F] in
/-- `has_net` tells membership in the list of nets. -/
theorem C45_has_net (a : NetClass F) (n : Str) : a.hasNet n = true ↔ n ∈ a.nets := by
  simp [NetClass.hasNet]

end Verif

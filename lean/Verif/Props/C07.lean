import Verif.Props.C01
import Verif.Props.C05
/-!
# C07: a field added through the API is still there after saving and loading

The full claim is for all components.  It is false when the new field gets a
number of 3 or lower (the component has no field numbered 3 or more), because the
file has no place for the name of such a field; `C07_kept_iff` is the exact
condition.
-/

namespace Verif
open Sch Spec Flt

variable {F : Type} [Flt F] [TextLaws F]

/-- The names the file format gives to the low numbers a new field can get. -/
def Spec.lowName (i : Int) : Option Str :=
  if i = 1 then some (str! "Value") else if i = 2 then some (str! "Footprint")
  else if i = 3 then some (str! "UserDocLink") else none

/-- A schematic with one more element. -/
def Spec.withComponent (s : Schematic F) (pre post : List (Element F)) (c : Component F) : Schematic F :=
  { s with elements := pre ++ .component c :: post }

omit [TextLaws F] in
theorem Spec.fits_withComponent (s : Schematic F) (pre post : List (Element F)) (c : Component F)
    (hs : FitsSchematic s) (hp : ∀ e ∈ pre ++ post, FitsElement e) (hc : FitsComponent c) :
    FitsSchematic (withComponent s pre post c) := by
  obtain ⟨h1, h2, h3, h4, _, h6⟩ := hs
  refine ⟨h1, h2, h3, h4, ?_, h6⟩
  intro e he
  rcases List.mem_append.1 he with he | he
  · exact hp e (List.mem_append_left _ he)
  · rcases List.mem_cons.1 he with rfl | he
    · exact hc
    · exact hp e (List.mem_append_right _ he)

omit [TextLaws F] in
theorem Spec.fits_addField (c : Component F) (f : Sch.Field F) (hc : FitsComponent c) (hf : FitsField f) :
    FitsComponent ({ c with fields := c.fields ++ [f] } : Component F) := by
  obtain ⟨h1, h2, h3, h4, h5, h6, h7, h8, h9⟩ := hc
  refine ⟨h1, h2, h3, h4, h5, h6, h7, ?_, h9⟩
  intro g hg
  rcases List.mem_append.1 hg with hg | hg
  · exact h8 g hg
  · rw [List.mem_singleton.1 hg]; exact hf

omit [TextLaws F] in
/-- The name of a low numbered field is not in the text. -/
theorem Spec.show_low_name (s : Schematic F) (pre post : List (Element F)) (c : Component F) (f : Sch.Field F)
    (n : Str) (hf : f.i ≤ 3) :
    (withComponent s pre post { c with fields := c.fields ++ [f] }).show =
      (withComponent s pre post { c with fields := c.fields ++ [{ f with name := n }] }).show := by
  have h1 : f.show = ({ f with name := n } : Sch.Field F).show := by
    obtain ⟨i, value, orientation, x, y, size, visible, hj, vj, italic, bold, name⟩ := f
    have h3 : ¬ i > 3 := by simp only at hf; omega
    unfold Field.show
    simp only [h3, if_false]
  have h2 : ({ c with fields := c.fields ++ [f] } : Component F).show =
      ({ c with fields := c.fields ++ [{ f with name := n }] } : Component F).show := by
    have h : ((c.fields ++ [f]).map fun f => f.show ++ str! "\n") =
        (c.fields ++ [({ f with name := n } : Sch.Field F)]).map fun f => f.show ++ str! "\n" := by
      rw [List.map_append, List.map_append, List.map_singleton, List.map_singleton, h1]
    unfold Component.show
    simp only [h]
  have h3 : (pre ++ .component ({ c with fields := c.fields ++ [f] } : Component F) :: post).map Element.show =
      (pre ++ .component ({ c with fields := c.fields ++ [{ f with name := n }] } : Component F) :: post).map
        Element.show := by
    rw [List.map_append, List.map_append, List.map_cons, List.map_cons]
    rw [Element.show, Element.show, h2]
  unfold withComponent Schematic.show
  simp only [h3]

omit [TextLaws F] in
theorem Spec.getFieldValue_snoc (c : Component F) (f : Sch.Field F) (name : Str)
    (h : c.getFieldValue name = none) :
    ({ c with fields := c.fields ++ [f] } : Component F).getFieldValue name =
      if f.name = name then some f.value else none := by
  unfold Component.getFieldValue at h ⊢
  simp only [Option.map_eq_none_iff] at h
  by_cases hn : f.name = name <;> simp [List.find?_append, h, hn]

/-- What is there after saving and loading: `add_or_update_field` succeeds, the saved
schematic loads, everything but the new field is unchanged, and looking up the name
gives the value exactly if the number the field got is above 3 or has that name by
convention (and nothing otherwise). -/
theorem C07_kept_iff (s : Schematic F) (pre post : List (Element F)) (c : Component F)
    (template : Sch.Field F) (name value : Str)
    (hs : FitsSchematic s) (hp : ∀ e ∈ pre ++ post, FitsElement e) (hc : FitsComponent c)
    (hi : ∀ f ∈ c.fields, f.i < lastI64) (hn : Quotable name) (hv : Quotable value)
    (habs : c.getFieldValue name = none) :
    ∃ c' c'' i f, c.addOrUpdateField template name value = .ok (c', .new) ∧
      parseStr (withComponent s pre post c').show =
        .ok { withComponent s pre post c'' with filename := none } ∧
      c''.fields = c.fields ++ [f] ∧ f.i = i ∧ f.value = value ∧ (∀ g ∈ c.fields, g.i < i) ∧
      (i = 1 ∨ ∃ g ∈ c.fields, i = g.i + 1) ∧
      SameButFields c c'' ∧
      (c''.getFieldValue name = some value ↔ i > 3 ∨ lowName i = some name) ∧
      (¬ (i > 3 ∨ lowName i = some name) → c''.getFieldValue name = none) := by
  obtain ⟨hm0, hmf, hm1⟩ := Spec.maxFieldNum_foldl c.fields 0
  have hm : 0 ≤ maxFieldNum c.fields ∧ maxFieldNum c.fields < lastI64 := by
    refine ⟨hm0, ?_⟩
    rcases hm1 with h | ⟨f, hf, h⟩
    · unfold maxFieldNum; rw [h]; decide
    · have := hi f hf; unfold maxFieldNum; omega
  have hadd : c.addOrUpdateField template name value =
      .ok ({ c with fields := c.fields ++
        [Field.newFrom (maxFieldNum c.fields + 1) name value template.x template.y] }, .new) := by
    unfold Component.addOrUpdateField
    rw [habs]
    simp only [Component.addNewField, Spec.fieldNum_ok c hi, Res.bind_ok]
    rfl
  obtain ⟨i, hieq⟩ : ∃ i, i = maxFieldNum c.fields + 1 := ⟨_, rfl⟩
  rw [← hieq] at hadd
  have hi1 : 1 ≤ i := by omega
  have hib : i ≤ lastI64 := by omega
  have hlt : ∀ g ∈ c.fields, g.i < i := by
    intro g hg
    have := hmf g hg
    unfold maxFieldNum at hieq
    omega
  have hprev : i = 1 ∨ ∃ g ∈ c.fields, i = g.i + 1 := by
    unfold maxFieldNum at hieq
    rcases hm1 with h | ⟨g, hg, h⟩
    · left; omega
    · right; exact ⟨g, hg, by omega⟩
  have hI : inI64 i := by unfold inI64 lastI64 at *; omega
  by_cases h3 : i > 3
  · have hfit : FitsField (Field.newFrom i name value template.x template.y) := by
      refine ⟨by simp only [Field.newFrom]; omega, hI, (by decide : inI64 60), hv, hn, ?_⟩
      refine ⟨?_, ?_, ?_, ?_⟩ <;> (simp only [Field.newFrom]; intro h; omega)
    refine ⟨_, _, i, _, hadd, C01_roundtrip _ (fits_withComponent s pre post _ hs hp (fits_addField c _ hc hfit)),
      rfl, rfl, rfl, hlt, hprev, ⟨rfl, rfl, rfl, rfl, rfl, rfl, rfl⟩, ?_, fun h => absurd (Or.inl h3) h⟩
    rw [getFieldValue_snoc c _ name habs]
    simp [Field.newFrom, h3]
  · obtain ⟨n, hn', hq, hfix⟩ : ∃ n, lowName i = some n ∧ Quotable n ∧ FixedName i n := by
      have : i = 1 ∨ i = 2 ∨ i = 3 := by omega
      rcases this with h | h | h <;> subst h <;> refine ⟨_, rfl, ?_, ?_⟩ <;> decide
    have hfit : FitsField ({ Field.newFrom i name value template.x template.y with name := n } : Sch.Field F) :=
      ⟨by simp only [Field.newFrom]; omega, hI, (by decide : inI64 60), hv, hq, hfix⟩
    refine ⟨_, { c with fields := c.fields ++ [{ Field.newFrom i name value template.x template.y with name := n }] },
      i, _, hadd, ?_, rfl, rfl, rfl, hlt, hprev, ⟨rfl, rfl, rfl, rfl, rfl, rfl, rfl⟩, ?_, ?_⟩
    · rw [show_low_name s pre post c _ n (by simp only [Field.newFrom]; omega)]
      exact C01_roundtrip _ (fits_withComponent s pre post _ hs hp (fits_addField c _ hc hfit))
    · rw [getFieldValue_snoc c _ name habs, hn']
      by_cases hnn : n = name <;> simp [Field.newFrom, h3, hnn]
    · intro hno
      have : n ≠ name := fun he => hno (Or.inr (by rw [hn', he]))
      rw [getFieldValue_snoc c _ name habs]
      simp [this]

/-- A component with a field numbered 3 or more keeps the fields added to it.
Missing from the full claim: components with fewer fields. -/
theorem C07_field_kept_partial (s : Schematic F) (pre post : List (Element F)) (c : Component F)
    (template : Sch.Field F) (name value : Str)
    (hs : FitsSchematic s) (hp : ∀ e ∈ pre ++ post, FitsElement e) (hc : FitsComponent c)
    (hi : ∀ f ∈ c.fields, f.i < lastI64) (hn : Quotable name) (hv : Quotable value)
    (habs : c.getFieldValue name = none) (h3 : ∃ f ∈ c.fields, 3 ≤ f.i) :
    ∃ c', c.addOrUpdateField template name value = .ok (c', .new) ∧
      c'.getFieldValue name = some value ∧
      parseStr (withComponent s pre post c').show =
        .ok { withComponent s pre post c' with filename := none } := by
  obtain ⟨g, hg, hg3⟩ := h3
  obtain ⟨_, hmf, hm1⟩ := Spec.maxFieldNum_foldl c.fields 0
  have hm : 3 ≤ maxFieldNum c.fields ∧ maxFieldNum c.fields < lastI64 := by
    constructor
    · exact Int.le_trans hg3 (hmf g hg)
    · rcases hm1 with h | ⟨f, hf, h⟩
      · unfold maxFieldNum; rw [h]; decide
      · have := hi f hf; unfold maxFieldNum; omega
  have hadd : c.addOrUpdateField template name value =
      .ok ({ c with fields := c.fields ++
        [Field.newFrom (maxFieldNum c.fields + 1) name value template.x template.y] }, .new) := by
    unfold Component.addOrUpdateField
    rw [habs]
    simp only [Component.addNewField, Spec.fieldNum_ok c hi, Res.bind_ok]
    rfl
  have hfit : FitsField (Field.newFrom (maxFieldNum c.fields + 1) name value template.x template.y) := by
    refine ⟨by simp only [Field.newFrom]; omega, by unfold lastI64 at hm; simp only [Field.newFrom, inI64]; omega,
      (by decide : inI64 60), hv, hn, ?_⟩
    refine ⟨?_, ?_, ?_, ?_⟩ <;> (simp only [Field.newFrom]; intro h; omega)
  refine ⟨_, hadd, ?_, C01_roundtrip _ (fits_withComponent s pre post _ hs hp (fits_addField c _ hc hfit))⟩
  rw [getFieldValue_snoc c _ name habs]
  simp [Field.newFrom]

example : FitsSchematic (sampleSchematic Nm) ∧ FitsComponent (sampleComponent Nm) ∧
    (∀ f ∈ (sampleComponent Nm).fields, f.i < lastI64) ∧ Quotable (str! "Part no") ∧ Quotable (str! " a b") ∧
    (sampleComponent Nm).getFieldValue (str! "Part no") = none ∧
    ∃ f ∈ (sampleComponent Nm).fields, 3 ≤ f.i := by decide +kernel

/-- The full claim fails: a component that has only a reference and a value loses
every field added under another name than `Footprint`. -/
theorem C07_low_number_lost (s : Schematic F) (pre post : List (Element F)) (c : Component F)
    (template : Sch.Field F) (name value : Str)
    (hs : FitsSchematic s) (hp : ∀ e ∈ pre ++ post, FitsElement e) (hc : FitsComponent c)
    (hn : Quotable name) (hv : Quotable value) (habs : c.getFieldValue name = none)
    (h1 : ∃ f ∈ c.fields, f.i = 1) (hle : ∀ f ∈ c.fields, f.i ≤ 1) (hname : name ≠ str! "Footprint") :
    ∃ c' c'', c.addOrUpdateField template name value = .ok (c', .new) ∧
      c'.getFieldValue name = some value ∧
      parseStr (withComponent s pre post c').show =
        .ok { withComponent s pre post c'' with filename := none } ∧
      c''.getFieldValue name = none := by
  have hi : ∀ f ∈ c.fields, f.i < lastI64 := fun f hf => by
    have := hle f hf; unfold lastI64; omega
  obtain ⟨c', c'', i, f, ha, hb, hcf, rfl, hfv, hlt, hprev, hsame, hiff, hno⟩ :=
    C07_kept_iff s pre post c template name value hs hp hc hi hn hv habs
  obtain ⟨d, r, hd, hget, _⟩ := C05_add_or_update_field c template name value hi
  rw [ha] at hd
  cases hd
  refine ⟨c', c'', ha, hget, hb, hno ?_⟩
  have h2 : f.i = 2 := by
    obtain ⟨g, hg, hg1⟩ := h1
    have := hlt g hg
    rcases hprev with h | ⟨k, hk, h⟩
    · omega
    · have := hle k hk; omega
  rw [h2]
  rintro (h | h)
  · omega
  · exact hname (Option.some.inj h).symm

/-- A component with a reference and a value only. -/
def Spec.plainComponent : Component Nm :=
  { sampleComponent Nm with fields := [{ Field.newFrom 0 (str! "Reference") (str! "R1") Flt.zero Flt.zero with visible := true },
      Field.newFrom 1 (str! "Value") (str! "10k") Flt.zero Flt.zero] }

example : FitsSchematic (sampleSchematic Nm) ∧ FitsComponent plainComponent ∧ Quotable (str! "MPN") ∧
    plainComponent.getFieldValue (str! "MPN") = none ∧ (∃ f ∈ plainComponent.fields, f.i = 1) ∧
    (∀ f ∈ plainComponent.fields, f.i ≤ 1) ∧ str! "MPN" ≠ str! "Footprint" := by decide +kernel

end Verif

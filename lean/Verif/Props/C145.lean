import Verif.Props.C138
import Verif.Props.C144
import Verif.Props.C14
/-!
# C145: the library that a schematic needs

A program copies the symbols that the components of a schematic use into a library of their own, and puts libraries
together.
-/

namespace Verif
open Flt Spec

set_option linter.unusedSectionVars false

variable {F : Type} [Flt F]

/-- `lib.symbols.retain(|s| names.iter().any(|n| s goes by n))`, on the public field (src/symbol_lib.rs 21-24). -/
def Spec.onlyNamed (names : List Str) (l : Lib.SymbolLib F) : Lib.SymbolLib F :=
  { l with symbols := l.symbols.filter fun s => names.any fun n => decide (GoesBy s n) }

/-- The names of the symbols that the components of the page refer to (src/schematic.rs 395-396). -/
def Spec.symbolNames (s : Sch.Schematic F) : List Str := s.components.map (·.name)

/-- The symbols that the components of the page use. -/
def Spec.needed (s : Sch.Schematic F) (l : Lib.SymbolLib F) : Lib.SymbolLib F := onlyNamed (symbolNames s) l

/-- `a.symbols.extend(b.symbols)`, on the public field (src/symbol_lib.rs 21-24). -/
def Spec.joined (a b : Lib.SymbolLib F) : Lib.SymbolLib F := { a with symbols := a.symbols ++ b.symbols }

namespace Need

theorem symbolOf_eq (l : Lib.SymbolLib F) (n : Str) : symbolOf l n = l.symbols.find? fun s => decide (GoesBy s n) := by
  obtain ⟨ss⟩ := l
  induction ss with
  | nil => rfl
  | cons s ss ih =>
    rw [Symren.find_cons, ih, List.find?_cons]
    by_cases h : GoesBy s n
    · simp [h]
    · simp [h]

end Need

/-- A name that is kept has the symbol it had; what is left has a name that is kept. -/
theorem C145_symbols (names : List Str) (l : Lib.SymbolLib F) :
    (∀ n ∈ names, symbolOf (onlyNamed names l) n = symbolOf l n) ∧
    (∀ s, s ∈ (onlyNamed names l).symbols ↔ s ∈ l.symbols ∧ ∃ n ∈ names, GoesBy s n) ∧
    (onlyNamed names l).symbols.Sublist l.symbols := by
  refine ⟨fun n hn => ?_, fun s => ?_, List.filter_sublist⟩
  · rw [Need.symbolOf_eq, Need.symbolOf_eq]
    simp only [onlyNamed, List.find?_filter]
    congr 1
    funext s
    by_cases h : GoesBy s n
    · have : (names.any fun m => decide (GoesBy s m)) = true := List.any_eq_true.2 ⟨n, hn, by simpa using h⟩
      simp [h, this]
    · simp [h]
  · simp only [onlyNamed, List.mem_filter, List.any_eq_true, decide_eq_true_eq]

/-- Every component has the symbol it had in the larger library, and the same components are without. -/
theorem C145_enough (s : Sch.Schematic F) (l : Lib.SymbolLib F) :
    (∀ c ∈ s.components, symbolOf (needed s l) c.name = symbolOf l c.name) ∧ missing (needed s l) s = missing l s := by
  have h : ∀ c ∈ s.components, symbolOf (needed s l) c.name = symbolOf l c.name := fun c hc =>
    (C145_symbols _ l).1 _ (List.mem_map_of_mem hc)
  refine ⟨h, ?_⟩
  simp only [missing]
  congr 1
  exact List.filter_congr fun c hc => by rw [h c hc]

/-- No library with fewer names will do: if a library gives every component the symbol it had, each of those is in it. -/
theorem C145_least (s : Sch.Schematic F) (l m : Lib.SymbolLib F) (h : ∀ c ∈ s.components, symbolOf m c.name = symbolOf l c.name)
    (x : Lib.Symbol F) (c : Sch.Component F) (hc : c ∈ s.components) (hx : symbolOf l c.name = some x) :
    x ∈ m.symbols ∧ x ∈ (needed s l).symbols := by
  have h1 : symbolOf m c.name = some x := (h c hc).trans hx
  have h2 : symbolOf (needed s l) c.name = some x := ((C145_enough s l).1 c hc).trans hx
  rw [Need.symbolOf_eq] at h1 h2
  exact ⟨List.mem_of_find?_eq_some h1, List.mem_of_find?_eq_some h2⟩

/-- Doing it again changes nothing.  After components were removed or changed, what is needed can be taken from the smaller library as
long as no new names are needed.  Two schematics need what their combination needs. -/
theorem C145_again (s t : Sch.Schematic F) (l : Lib.SymbolLib F) :
    needed s (needed s l) = needed s l ∧
    (symbolNames t ⊆ symbolNames s → needed t (needed s l) = needed t l) ∧
    (∀ r, needed (takeOut r s) (needed s l) = needed (takeOut r s) l) ∧
    ∀ x, x ∈ (needed (paste s t) l).symbols ↔ x ∈ (needed s l).symbols ∨ x ∈ (needed t l).symbols := by
  have sub : ∀ a b : List Str, a ⊆ b → onlyNamed a (onlyNamed b l) = onlyNamed a l := by
    intro a b hab
    simp only [onlyNamed, List.filter_filter]
    congr 1
    refine List.filter_congr fun x _ => ?_
    cases h : a.any fun n => decide (GoesBy x n) with
    | false => rfl
    | true =>
      obtain ⟨n, h1, h2⟩ := List.any_eq_true.1 h
      rw [Bool.true_and]
      exact List.any_eq_true.2 ⟨n, hab h1, h2⟩
  refine ⟨sub _ _ fun _ h => h, fun h => sub _ _ h, fun r => sub _ _ ?_, fun x => ?_⟩
  · simp only [symbolNames, (C144_components r s).1]
    exact (List.filter_sublist.map _).subset
  · simp only [needed, (C145_symbols _ l).2.1, symbolNames, (C139_components s t).1, List.map_append, List.mem_append]
    constructor
    · rintro ⟨h1, n, h2 | h2, h3⟩
      · exact Or.inl ⟨h1, n, h2, h3⟩
      · exact Or.inr ⟨h1, n, h2, h3⟩
    · rintro (⟨h1, n, h2, h3⟩ | ⟨h1, n, h2, h3⟩)
      · exact ⟨h1, n, Or.inl h2, h3⟩
      · exact ⟨h1, n, Or.inr h2, h3⟩

/-- In libraries put together, the first has precedence; what is needed can be chosen before or after. -/
theorem C145_joined (a b : Lib.SymbolLib F) (s : Sch.Schematic F) :
    (∀ n, symbolOf (joined a b) n = (symbolOf a n).or (symbolOf b n)) ∧ needed s (joined a b) = joined (needed s a) (needed s b) ∧
    (∀ r, r ∈ missing (joined a b) s → r ∈ missing a s ∧ r ∈ missing b s) := by
  have h : ∀ n, symbolOf (joined a b) n = (symbolOf a n).or (symbolOf b n) := fun n => by
    rw [Need.symbolOf_eq, Need.symbolOf_eq, Need.symbolOf_eq]
    exact List.find?_append
  refine ⟨h, by simp only [needed, onlyNamed, joined, List.filter_append], fun r hr => ?_⟩
  obtain ⟨c, hc, rfl⟩ := List.mem_map.1 hr
  obtain ⟨h1, h2⟩ := List.mem_filter.1 hc
  rw [h, Option.isNone_iff_eq_none, Option.or_eq_none_iff] at h2
  exact ⟨List.mem_map.2 ⟨c, List.mem_filter.2 ⟨h1, by rw [h2.1]; rfl⟩, rfl⟩, List.mem_map.2 ⟨c, List.mem_filter.2 ⟨h1, by rw [h2.2]; rfl⟩, rfl⟩⟩

/-- What is taken from libraries that are saved and read back is so too. -/
theorem C145_saved [TextLaws F] (names : List Str) (a b : Lib.SymbolLib F) (ha : FitsLib a) (ha' : ¬ HasBold a) (hb : FitsLib b)
    (hb' : ¬ HasBold b) : ∃ t, (onlyNamed names (joined a b)).show = .ok t ∧ Lib.parseStr t = .ok (onlyNamed names (joined a b)) := by
  have hm : ∀ s ∈ (onlyNamed names (joined a b)).symbols, s ∈ a.symbols ∨ s ∈ b.symbols := fun s hs =>
    List.mem_append.1 (List.mem_filter.1 hs).1
  refine C14_roundtrip _ (fun s hs => (hm s hs).elim (ha s) (hb s)) ?_
  rintro ⟨s, hs, f, hf, h⟩
  exact (hm s hs).elim (fun h1 => ha' ⟨s, h1, f, hf, h⟩) fun h1 => hb' ⟨s, h1, f, hf, h⟩

/-! ### Cases -/

/-- A schematic with a resistor. -/
def Need.page : Sch.Schematic Nm := { (Sch.Schematic.dflt : Sch.Schematic Nm) with elements :=
  [.component { (Sch.Component.dflt : Sch.Component Nm) with name := str! "R", reference := str! "R1" },
   .component { (Sch.Component.dflt : Sch.Component Nm) with name := str! "L", reference := str! "L1" }] }

example : (needed Need.page Symren.lib).symbols.map (·.name) = [str! "~R"] ∧ missing Symren.lib Need.page = [str! "L1"] := by decide +kernel

example : FitsLib (sampleLib Nm) ∧ ¬ HasBold (sampleLib Nm) ∧
    ((onlyNamed [str! "GND"] (joined (sampleLib Nm) (sampleLib Nm))).symbols.map (·.name)) = [str! "GND", str! "GND"] := by decide +kernel

/-- Names in `ALIAS` lines do not count: a symbol that a component refers to by one of them is dropped. -/
theorem C145_alias : ∃ (s : Sch.Schematic Nm) (l : Lib.SymbolLib Nm) (c : Sch.Component Nm), c ∈ s.components ∧
    (l.find fun x => decide (c.name ∈ x.aliases)).isSome = true ∧ ((needed s l).find fun x => decide (c.name ∈ x.aliases)) = none := by
  refine ⟨Need.page, ⟨[{ (Spec.hiddenSymbol : Lib.Symbol Nm) with name := str! "RES", aliases := [str! "R"] }]⟩, _, List.mem_cons_self .., ?_, ?_⟩
  · decide +kernel
  · decide +kernel

end Verif

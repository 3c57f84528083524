import Verif.Model.FpLibTable
import Verif.Props.C19
/-!
# C52: a saved footprint-library table reads back
-/

namespace Verif
open Spec Sx Tbl

/-- The strings of a library entry survive quoting. -/
def Spec.CleanLib (l : Tbl.Lib) : Prop :=
  Clean l.name ∧ Clean l.type_ ∧ Clean l.uri ∧ Clean l.options ∧ Clean l.descr

theorem Tbl.Lib.de_ser (l : Tbl.Lib) : Tbl.Lib.de l.ser = .ok l := by
  simp [Tbl.Lib.de, Tbl.Lib.ser]

theorem Tbl.Lib.ok_ser {q : Str → Bool} (hq : QuotesWhenNeeded q) (l : Tbl.Lib) (h : CleanLib l) :
    OkTree q l.ser := by
  obtain ⟨h1, h2, h3, h4, h5⟩ := h
  have P := fun (n s : Str) (hn : Plain n) (hs : Clean s) =>
    okTree_pair hn (okTree_str (Fp.okAtom_clean hq hs))
  exact okTree_node (by decide) ⟨P _ _ (by decide) h1, P _ _ (by decide) h2, P _ _ (by decide) h3,
    P _ _ (by decide) h4, P _ _ (by decide) h5, trivial⟩

/-- Saving a table and reading the text gives the table back, libraries in the
same order, for every indentation and every quoting policy that quotes what needs
quotes; white space may follow the text. -/
theorem C52_table_roundtrip (q : Str → Bool) (hq : QuotesWhenNeeded q) (level : Int)
    (t : FpLibTable) (h : ∀ l ∈ t.libs, CleanLib l) (w : Str) (hw : Blank w) :
    Tbl.parse (Tbl.toText q level t ++ w) = .ok t := by
  have hok : OkTree q t.ser := by
    refine okTree_node (by decide) (okTrees_iff.2 fun x hx => ?_)
    obtain ⟨l, hl, rfl⟩ := List.mem_map.1 hx
    exact Tbl.Lib.ok_ser hq l (h l hl)
  rw [Tbl.parse, Tbl.toText, Sexp.Text.parse_toText_blank q level _ hok w hw, Res.bind_ok]
  have hv := vec_map Tbl.Lib.de Tbl.Lib.ser id t.libs (fun l _ => Tbl.Lib.de_ser l)
  simp only [FpLibTable.de, FpLibTable.ser, iter_node, Res.bind_ok, hv, List.map_id]

example : ∃ t : FpLibTable, t.libs.length = 2 ∧ ∀ l ∈ t.libs, CleanLib l := by
  refine ⟨⟨[⟨str! "Caps", str! "KiCad", str! "${KISYS}/x y", [], str! "a (b)"⟩,
    ⟨[], [], [], [], []⟩]⟩, rfl, ?_⟩
  unfold CleanLib; decide

/-- Two different tables are never saved as the same text. -/
theorem C52_saved_text_determines (q : Str → Bool) (hq : QuotesWhenNeeded q) (level level' : Int)
    (t t' : FpLibTable) (h : ∀ l ∈ t.libs, CleanLib l) (h' : ∀ l ∈ t'.libs, CleanLib l)
    (heq : Tbl.toText q level t = Tbl.toText q level' t') : t = t' := by
  have h1 := C52_table_roundtrip q hq level t h [] Sexp.Text.blank_nil
  have h2 := C52_table_roundtrip q hq level' t' h' [] Sexp.Text.blank_nil
  rw [heq, h2] at h1
  exact (Res.ok.inj h1).symm

/-- The reader ignores whatever follows the description of a library: such text
is accepted and lost when the table is saved. -/
theorem C52_extra_entries_ignored (l : Tbl.Lib) (extra : List Sexp) :
    Tbl.Lib.de (node (str! "lib") ([pair (str! "name") (.str l.name), pair (str! "type") (.str l.type_),
      pair (str! "uri") (.str l.uri), pair (str! "options") (.str l.options),
      pair (str! "descr") (.str l.descr)] ++ extra)) = .ok l := by
  simp [Tbl.Lib.de]

end Verif

import Verif.Lemmas.FpGrammar
import Verif.Lemmas.Calm
import Verif.Spec.TableGrammar
/-!
# C79: the language of footprint library tables

`Spec.TableText` (Spec/TableGrammar) says which texts stand for which tables.
-/

namespace Verif
open Spec Sx Tree Tbl

theorem Tbl.lib_iff (e : Sexp) (l : Tbl.Lib) : Lib.de e = .ok l ↔ LibTree e l := by
  unfold Lib.de LibTree
  constructor
  · intro h0
    obtain ⟨i0, hi, h0⟩ := Res.bind_eq_ok.1 h0
    obtain ⟨⟨x1, i1⟩, h1, h0⟩ := Res.bind_eq_ok.1 h0
    obtain ⟨⟨x2, i2⟩, h2, h0⟩ := Res.bind_eq_ok.1 h0
    obtain ⟨⟨x3, i3⟩, h3, h0⟩ := Res.bind_eq_ok.1 h0
    obtain ⟨⟨x4, i4⟩, h4, h0⟩ := Res.bind_eq_ok.1 h0
    obtain ⟨⟨x5, i5⟩, h5, h0⟩ := Res.bind_eq_ok.1 h0
    cases h0
    rw [iter_iff] at hi
    obtain ⟨p1, rfl, g1⟩ := (eat_iff ..).1 h1
    obtain ⟨p2, rfl, g2⟩ := (eat_iff ..).1 h2
    obtain ⟨p3, rfl, g3⟩ := (eat_iff ..).1 h3
    obtain ⟨p4, rfl, g4⟩ := (eat_iff ..).1 h4
    obtain ⟨p5, rfl, g5⟩ := (eat_iff ..).1 h5
    exact ⟨p1, p2, p3, p4, p5, i5, hi, (inList_iff Fp.word_iff _ _ _).1 g1, (inList_iff Fp.word_iff _ _ _).1 g2,
      (inList_iff Fp.word_iff _ _ _).1 g3, (inList_iff Fp.word_iff _ _ _).1 g4, (inList_iff Fp.word_iff _ _ _).1 g5⟩
  · rintro ⟨p1, p2, p3, p4, p5, i5, rfl, g1, g2, g3, g4, g5⟩
    simp only [(iter_iff ..).2 rfl, Res.bind_ok, eat, (inList_iff Fp.word_iff _ _ _).2 g1,
      (inList_iff Fp.word_iff _ _ _).2 g2, (inList_iff Fp.word_iff _ _ _).2 g3, (inList_iff Fp.word_iff _ _ _).2 g4,
      (inList_iff Fp.word_iff _ _ _).2 g5]

theorem Tbl.table_iff (e : Sexp) (t : FpLibTable) : FpLibTable.de e = .ok t ↔ TableTree e t := by
  unfold FpLibTable.de TableTree
  simp only [Res.bind_eq_ok, iter_iff, vec_iff Tbl.lib_iff]
  constructor
  · rintro ⟨i, rfl, l, h, e⟩
    cases e
    exact ⟨i, rfl, h⟩
  · rintro ⟨i, rfl, h⟩
    exact ⟨i, rfl, t.libs, h, rfl⟩

/-- A text is read as a table exactly if it stands for it. -/
theorem C79_grammar (s : Str) (t : FpLibTable) : Tbl.parse s = .ok t ↔ TableText s t := by
  unfold Tbl.parse TableText
  simp only [Res.bind_eq_ok, parseSexp_iff, Tbl.table_iff]

/-- The grammar is unambiguous: no text stands for two tables. -/
theorem C79_unique (s : Str) (a b : FpLibTable) (ha : TableText s a) (hb : TableText s b) : a = b :=
  Res.ok.inj (((C79_grammar s a).2 ha).symm.trans ((C79_grammar s b).2 hb))

/-- Every other text is an error: the reader does not panic and always ends. -/
theorem C79_rest (s : Str) (h : ∀ t, ¬ TableText s t) : ∃ e, Tbl.parse s = .err e := by
  have hc := Tbl.parse_calm s
  cases hp : Tbl.parse s with
  | ok m => exact absurd ((C79_grammar s m).1 hp) (h m)
  | err e => exact ⟨e, rfl⟩
  | panic => exact absurd hp hc.1
  | diverge => exact absurd hp hc.2

/-! ## Examples -/

/-- A table with an entry that has a part too many. -/
example : TableText
    (str! "(fp_lib_table\n  (lib (name A)(type KiCad)(uri ${DIR}/a.pretty)(options \"\")(descr \"two words\") (hidden)))\n")
    ⟨[⟨str! "A", str! "KiCad", str! "${DIR}/a.pretty", str! "", str! "two words"⟩]⟩ :=
  (C79_grammar _ _).1 (by decide +kernel)

/-- Tables written by later versions, which begin with a version number, are not read. -/
example (t : FpLibTable) : ¬ TableText (str! "(fp_lib_table (version 7) (lib (name A)(type KiCad)(uri a)(options \"\")(descr \"\")))") t := by
  rw [← C79_grammar]
  intro h
  have : (match Tbl.parse (str! "(fp_lib_table (version 7) (lib (name A)(type KiCad)(uri a)(options \"\")(descr \"\")))") with
    | .ok _ => true | _ => false) = true := by rw [h]
  revert this
  decide +kernel

end Verif

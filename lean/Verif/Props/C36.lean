import Verif.Props.C35
/-!
# C36: unknown sections of a board file are preserved
-/

namespace Verif
open Flt Lay Spec

variable {F : Type} [Flt F] [TextLaws F] [ZeroLaws F]

/-- The sections of a board file that describe the board as a whole; all others
are kept as a list of elements. -/
def Spec.boardHeader : List Str :=
  [str! "version", str! "host", str! "general", str! "page", str! "layers", str! "setup"]

/-- Is a section one of the elements? -/
def Spec.isElement : Sexp → Bool
  | .list (.str n :: _) => !decide (n ∈ Spec.boardHeader)
  | _ => false

/-- Is a section unknown to the library? -/
def Spec.isUnknown : Sexp → Bool
  | .list (.str n :: _) => !decide (n ∈ layoutSections)
  | _ => false

/-- An element of a layout corresponds to a section: an unknown section is kept
as it is, and only unknown sections are. -/
def Spec.Keeps (s : Sexp) (e : Lay.Elem F) : Prop :=
  if Spec.isUnknown s then e = .other s else ∀ t, e ≠ .other t

theorem Spec.isElement_eq : Spec.isElement = Lay.isElem := by
  funext s
  unfold Spec.isElement Lay.isElem
  cases s with
  | str s => rfl
  | empty => rfl
  | list l =>
    cases l with
    | nil => rfl
    | cons x l => cases x <;> rfl

theorem Spec.vec_forall₂ {α : Type} {dec : Sexp → Res α} : ∀ {i : List Sexp} {l : List α},
    Sx.vec dec i = .ok l → List.Forall₂ (fun s a => dec s = .ok a) i l
  | [], l, h => by simp only [Sx.vec, Res.ok.injEq] at h; subst h; exact .nil
  | x :: i, l, h => by
    simp only [Sx.vec, Res.bind_eq_ok, Res.ok.injEq] at h
    obtain ⟨b, hb, l', hl, rfl⟩ := h
    exact .cons hb (vec_forall₂ hl)

theorem Spec.keeps_of_read {s : Sexp} {e : Lay.Elem F} (h : Elem.read s = .ok e)
    (hs : isElem s = true) : Spec.Keeps s e := by
  unfold Spec.Keeps
  rcases Elem.read_inv h hs with ⟨v, hv, rfl⟩ | ⟨v, hv, rfl⟩ | ⟨v, hv, rfl⟩ | ⟨v, hv, rfl⟩ |
    ⟨v, hv, rfl⟩ | ⟨v, hv, rfl⟩ | ⟨v, hv, rfl⟩ | ⟨v, hv, rfl⟩ | ⟨v, hv, rfl⟩ | ⟨v, hv, rfl⟩ |
    ⟨v, hv, rfl⟩ | ⟨⟨n, r, rfl, hu⟩, rfl⟩
  case inr.inr.inr.inr.inr.inr.inr.inr.inr.inr.inr =>
    rw [if_pos (by simp [Spec.isUnknown, hu])]
  all_goals
    split
    · rename_i hk
      exfalso
      simp only [Elem.read, Res.bind_eq_ok] at h
      obtain ⟨n, hn, h⟩ := h
      obtain ⟨r, rfl⟩ := listName_ok hn
      simp only [Spec.isUnknown, Bool.not_eq_true', decide_eq_false_iff_not, layoutSections,
        List.mem_cons, List.not_mem_nil, or_false, not_or] at hk
      obtain ⟨h1, h2, h3, h4, h5, h6, h7, h8, h9, h10, h11, h12, h13, h14, h15, h16, h17⟩ := hk
      simp only [h6, h7, h8, h9, h10, h11, h12, h13, h14, h15, h16, if_false, Res.ok.injEq] at h
      cases h
    · intro t ht; cases ht

/-- Reading a board: the sections of the file that are elements correspond one
to one, in order, to the elements of the layout, and every section the library
does not know is kept verbatim at its place. -/
theorem C36_unknown_kept (t : Str) (r : List Sexp) (l : Layout F)
    (ht : parseSexp t = .ok (.list (.str (str! "kicad_pcb") :: r))) (hl : Lay.parse t = .ok l) :
    List.Forall₂ Spec.Keeps (r.filter Spec.isElement) l.elements := by
  rw [Lay.parse, ht, Res.bind_ok] at hl
  obtain ⟨r', hr', hes⟩ := Layout.elements_of_de hl
  simp only [Sx.node, Sexp.list.injEq, List.cons.injEq, true_and] at hr'
  subst hr'
  rw [Spec.isElement_eq]
  have h2 := Spec.vec_forall₂ hes
  have hall : ∀ s ∈ r.filter isElem, isElem s = true := fun s hs => (List.mem_filter.1 hs).2
  clear hes ht hl
  generalize r.filter isElem = i at h2 hall ⊢
  generalize l.elements = es at h2 ⊢
  induction h2 with
  | nil => exact .nil
  | cons hd _ ih =>
    rw [List.forall_mem_cons] at hall
    exact .cons (Spec.keeps_of_read hd hall.1) (ih hall.2)

/-- The section kept by an element, if it is an unknown one. -/
def Spec.kept : Lay.Elem F → Option Sexp
  | .other s => some s
  | _ => none

theorem Spec.unknown_of_keeps : ∀ {i : List Sexp} {es : List (Lay.Elem F)},
    List.Forall₂ Spec.Keeps i es →
    es.filterMap Spec.kept = i.filter Spec.isUnknown
  | _, _, .nil => rfl
  | s :: _, e :: _, .cons h t => by
    have ih := Spec.unknown_of_keeps t
    unfold Spec.Keeps at h
    split at h
    · rename_i hu
      subst h
      rw [List.filter_cons_of_pos hu, List.filterMap_cons_some (f := Spec.kept) (a := .other s) rfl, ih]
    · rename_i hu
      have hn : Spec.kept e = none := by
        cases e with
        | other t => exact absurd rfl (h t)
        | _ => rfl
      rw [List.filter_cons_of_neg hu, List.filterMap_cons_none hn, ih]

theorem Spec.isElement_of_isUnknown (s : Sexp) (h : Spec.isUnknown s = true) : Spec.isElement s = true := by
  unfold Spec.isUnknown at h
  split at h
  · simp only [Bool.not_eq_true', decide_eq_false_iff_not, layoutSections, List.mem_cons,
      List.not_mem_nil, or_false, not_or] at h
    simp only [Spec.isElement, Spec.boardHeader, Bool.not_eq_true', decide_eq_false_iff_not,
      List.mem_cons, List.not_mem_nil, or_false, not_or]
    tauto
  · simp at h

theorem Spec.filter_unknown (r : List Sexp) :
    (r.filter Spec.isElement).filter Spec.isUnknown = r.filter Spec.isUnknown := by
  rw [List.filter_filter]
  apply List.filter_congr
  intro s _
  cases h : Spec.isUnknown s with
  | false => simp
  | true => simp [Spec.isElement_of_isUnknown s h]

/-- Read a board and save it: the saved text, read as plain s-expressions, has
exactly the same unknown sections in the same order. -/
theorem C36_unknown_written_back (q : Str → Bool) (hq : QuotesWhenNeeded q) (level : Int) (t : Str)
    (r : List Sexp) (l : Layout F) (ht : parseSexp t = .ok (.list (.str (str! "kicad_pcb") :: r)))
    (hl : Lay.parse t = .ok l) (hc : CleanLayout l) :
    ∃ r', parseSexp (Lay.toText q level l) = .ok (.list (.str (str! "kicad_pcb") :: r')) ∧
      r'.filter Spec.isUnknown = r.filter Spec.isUnknown := by
  have hk := C36_unknown_kept t r l ht hl
  rw [Lay.parse, ht, Res.bind_ok] at hl
  obtain ⟨r', hr', hes⟩ := Layout.elements_of_de hl
  have hnl : Blank (str! "\n") := by unfold Blank; decide
  refine ⟨_, Sexp.Text.parse_toText_blank q level _ (Layout.ok_ser hq l hc (Layout.shapes_of_de hl)) _ hnl, ?_⟩
  rw [← Spec.filter_unknown r, ← Spec.unknown_of_keeps hk, List.filter_append]
  have h0 : [Sx.pair (str! "version") (Sx.ofI l.version),
      Sx.node (str! "host") [.str l.host.tool, .str l.host.build],
      l.general.ser, Sx.pair (str! "page") (.str l.page),
      Sx.node (str! "layers") (l.layers.map Layer.ser), l.setup.ser].filter Spec.isUnknown = [] := rfl
  rw [h0, List.nil_append]
  have hu : ∀ s, Lay.Elem.other s ∈ l.elements → Spec.isUnknown s = true := by
    intro s hs
    obtain ⟨x, hx, hxr⟩ := Fp.vec_mem hes _ hs
    rcases Elem.read_inv hxr (List.mem_filter.1 hx).2 with ⟨v, hv, he⟩ | ⟨v, hv, he⟩ | ⟨v, hv, he⟩ |
      ⟨v, hv, he⟩ | ⟨v, hv, he⟩ | ⟨v, hv, he⟩ | ⟨v, hv, he⟩ | ⟨v, hv, he⟩ | ⟨v, hv, he⟩ |
      ⟨v, hv, he⟩ | ⟨v, hv, he⟩ | ⟨⟨n, r, rfl, hu⟩, he⟩ <;> cases he
    simp [Spec.isUnknown, hu]
  clear hk hes
  generalize l.elements = es at hu
  induction es with
  | nil => rfl
  | cons e es ih =>
    have ih := ih fun s hs => hu s (by simp [hs])
    cases e with
    | other s =>
      rw [List.map_cons, Elem.ser, List.filter_cons_of_pos (hu s (by simp)),
        List.filterMap_cons_some (f := Spec.kept) (a := .other s) rfl, ih]
    | _ =>
      rw [List.map_cons, List.filter_cons_of_neg (by simp [Elem.ser, Spec.isUnknown, layoutSections,
        Fp.Module.ser, Fp.Net.ser, NetClass.ser, GrText.ser, GrLine.ser, GrArc.ser, GrCircle.ser,
        Dimension.ser, Zone.ser, Segment.ser, Via.ser, Sx.node]), List.filterMap_cons_none rfl, ih]

/-- The unknown section of the sample board. -/
example : ∃ (r : List Sexp) (l : Layout Nm), ∃ t : Str,
    parseSexp t = .ok (.list (.str (str! "kicad_pcb") :: r)) ∧ Lay.parse t = .ok l ∧ CleanLayout l ∧
    r.filter Spec.isUnknown = [.list [.str (str! "target"), .str (str! "plus sign")]] := by
  refine ⟨_, Spec.sampleLayout, _, Sexp.Text.parse_toText_blank Fm.stdQuote 0 _
    (Layout.ok_ser Spec.stdQuote_quotes _ Spec.sampleLayout_clean Spec.sampleLayout_savable.shapes)
    (str! "\n") (by unfold Blank; decide), ?_, Spec.sampleLayout_clean, ?_⟩
  · have := C35_layout_roundtrip Fm.stdQuote Spec.stdQuote_quotes 0 Spec.sampleLayout
      Spec.sampleLayout_savable Spec.sampleLayout_clean [] Sexp.Text.blank_nil
    rwa [List.append_nil] at this
  · rfl

end Verif

import Verif.Props.C57
import Verif.Props.C58
import Verif.Lemmas.Settle
/-!
# C110: footprints and boards settle after one save

What C20 and C57 leave open: a footprint or board that was read and then saved need not read back
as it was.  Here is exactly what it reads as (`Spec.settle`), when it does not read at all, and
that from then on nothing changes any more: the file saved from what was read is the file it was
read from.
-/

namespace Verif
open Flt Spec

namespace Spec

variable {F : Type} [Flt F]

theorem settleFont_iff (f : Fp.Font F) : settleFont f = f ↔ ResavableFont f := by
  unfold settleFont ResavableFont
  split
  · rename_i h
    exact ⟨fun _ => h.elim .inl fun x => .inr (.inl x), fun _ => rfl⟩
  · rename_i h
    rw [not_or] at h
    obtain ⟨⟨x, y, t⟩, th, it⟩ := f
    simp only [Fp.Font.mk.injEq, Fp.Xy.mk.injEq, and_true] at h ⊢
    rw [or_iff_right h.1, or_iff_right h.2]
    exact and_congr eq_comm eq_comm

theorem settleDrill_iff (d : Fp.Drill F) (h : HoleWritten d) : settleDrill d = d ↔
    lt zero d.width = true ∧ (d.height = d.width ∨
      (lt zero d.height = true ∧ lt eps (Flt.abs (sub d.height d.width)) = true)) := by
  obtain ⟨s, w, hh, ox, oy⟩ := d
  unfold settleDrill
  dsimp only
  split
  · rename_i hw
    simp only [hw, true_and]
    split
    · rename_i hg
      exact ⟨fun _ => .inr hg, fun _ => rfl⟩
    · rename_i hg
      rw [or_iff_left hg]
      simp only [Fp.Drill.mk.injEq, and_true, true_and]
      exact eq_comm
  · rename_i hw
    have h1 := (h.resolve_left hw).1
    simp only [hw, Bool.false_eq_true, false_and, iff_false]
    intro he
    simp only [Fp.Drill.mk.injEq, and_true, true_and] at he
    dsimp only at h1
    rw [he] at h1
    exact hw h1

theorem settleElem_iff (e : Fp.Elem F) (h : ReadsBack e) : settleElem e = e ↔ Resavable e := by
  cases e with
  | text t =>
    have hp : settleElem (.text t) = .text t ↔
        settleFont t.effects.font = t.effects.font := by
      simp only [settleElem, Fp.Elem.text.injEq]
      exact ⟨fun e => congrArg (fun x : Fp.FpText F => x.effects.font) e, fun e => by rw [e]⟩
    rw [hp]
    exact settleFont_iff _
  | pad p =>
    have hp : settleElem (.pad p) = .pad p ↔ p.drill.map settleDrill = p.drill := by
      simp only [settleElem, Fp.Elem.pad.injEq]
      exact ⟨fun e => congrArg Fp.Pad.drill e, fun e => by rw [e]⟩
    rw [hp]
    cases hd : p.drill with
    | none => exact ⟨fun _ => ⟨h.1, by simp [hd]⟩, fun _ => rfl⟩
    | some d =>
      rw [Option.map_some, Option.some.injEq, settleDrill_iff d (h.2 d hd)]
      refine ⟨fun e => ⟨h.1, fun d' hd' => ?_⟩, fun e => e.2 d hd⟩
      rw [hd, Option.some.injEq] at hd'
      exact hd' ▸ e
  | tedit i => exact ⟨fun _ => h, fun _ => rfl⟩
  | tstamp i => exact ⟨fun _ => h, fun _ => rfl⟩
  | _ => exact ⟨fun _ => trivial, fun _ => rfl⟩

theorem map_eq_self {α : Type} (f : α → α) : ∀ l : List α, l.map f = l ↔ ∀ e ∈ l, f e = e
  | [] => by simp
  | a :: l => by simp [map_eq_self f l]

theorem settleBoardElem_iff (e : Lay.Elem F) (h : ReadsBackBoard e) :
    settleBoardElem e = e ↔ ResavableBoard e := by
  cases e with
  | module_ m =>
    obtain ⟨n, es⟩ := m
    simp only [settleBoardElem, settle, Lay.Elem.module_.injEq, Fp.Module.mk.injEq, true_and,
      map_eq_self, ResavableBoard]
    exact forall₂_congr fun e he => settleElem_iff e (h e he)
  | grText t =>
    obtain ⟨a, b, c, ⟨f, j⟩, d⟩ := t
    have := settleFont_iff f
    simp only [settleBoardElem, settleText, Lay.Elem.grText.injEq, Lay.GrText.mk.injEq,
      Fp.Effects.mk.injEq, true_and, and_true, ResavableBoard]
    exact this
  | dimension d =>
    have hp : settleBoardElem (.dimension d) = .dimension d ↔
        settleFont d.text.effects.font = d.text.effects.font := by
      simp only [settleBoardElem, settleText, Lay.Elem.dimension.injEq]
      exact ⟨fun e => congrArg (fun x : Lay.Dimension F => x.text.effects.font) e, fun e => by rw [e]⟩
    rw [hp]
    exact settleFont_iff _
  | zone z => exact ⟨fun _ => h, fun _ => rfl⟩
  | _ => exact ⟨fun _ => trivial, fun _ => rfl⟩

end Spec

variable {F : Type} [Flt F] [TextLaws F] [ZeroLaws F] [SelfLaws F]

/-- What a footprint that was read, and whose strings survive quoting, reads as after it was
saved: it reads exactly if no pad has a trapezoid delta or a hole without sizes and no time stamp is
negative, and then as what `Spec.settle` says. -/
theorem C110_footprint (q : Str → Bool) (hq : QuotesWhenNeeded q) (level : Int) (t : Str)
    (m r : Fp.Module F) (hr : Fp.parse t = .ok m) (hn : Clean m.name)
    (hs : ∀ e ∈ m.elements, ∀ s ∈ strings e, Clean s) :
    Fp.parse (Fp.toText q level m) = .ok r ↔ (∀ e ∈ m.elements, ReadsBack e) ∧ r = settle m := by
  simp only [Fp.parse, Res.bind_eq_ok] at hr
  obtain ⟨tree, _, hr⟩ := hr
  rw [Fp.parse, Fp.toText, Sexp.Text.parse_toText q level _
    (Fp.Module.ok_clean q hq m hn hs (Fp.Module.shapes_of_de hr)), Res.bind_ok]
  exact Fp.Module.settles hr r

/-- The same for boards, where in addition no zone may have a priority beyond the 64-bit range
(what a negative one is read as). -/
theorem C110_board (q : Str → Bool) (hq : QuotesWhenNeeded q) (level : Int) (t : Str)
    (l r : Lay.Layout F) (hr : Lay.parse t = .ok l) (hc : CleanLayout l) :
    Lay.parse (Lay.toText q level l) = .ok r ↔
      (∀ e ∈ l.elements, ReadsBackBoard e) ∧ r = settleBoard l := by
  simp only [Lay.parse, Res.bind_eq_ok] at hr
  obtain ⟨tree, _, hr⟩ := hr
  have hnl : Blank (str! "\n") := by unfold Blank; decide
  rw [Lay.parse, Lay.toText, Sexp.Text.parse_toText_blank q level _
    (Lay.Layout.ok_ser hq l hc (Lay.Layout.shapes_of_de hr)) _ hnl, Res.bind_ok]
  exact Lay.Layout.settles hr r

/-- Otherwise reading the saved footprint is an error. -/
theorem C110_unreadable (q : Str → Bool) (hq : QuotesWhenNeeded q) (level : Int) (t : Str)
    (m : Fp.Module F) (hr : Fp.parse t = .ok m) (hn : Clean m.name)
    (hs : ∀ e ∈ m.elements, ∀ s ∈ strings e, Clean s) :
    (∃ e, (Fp.parse (Fp.toText q level m) : Res (Fp.Module F)) = .err e) ↔
      ∃ e ∈ m.elements, ¬ ReadsBack e := by
  constructor
  · rintro ⟨e, he⟩
    by_contra hc
    push Not at hc
    rw [(C110_footprint q hq level t m _ hr hn hs).2 ⟨hc, rfl⟩] at he
    cases he
  · rintro ⟨e, he, hb⟩
    rcases (C58_always_returns (F := F) (Fp.toText q level m)).1 with ⟨r, h⟩ | h
    · exact absurd (((C110_footprint q hq level t m r hr hn hs).1 h).1 e he) hb
    · exact h

/-- The same for boards. -/
theorem C110_unreadable_board (q : Str → Bool) (hq : QuotesWhenNeeded q) (level : Int) (t : Str)
    (l : Lay.Layout F) (hr : Lay.parse t = .ok l) (hc : CleanLayout l) :
    (∃ e, (Lay.parse (Lay.toText q level l) : Res (Lay.Layout F)) = .err e) ↔
      ∃ e ∈ l.elements, ¬ ReadsBackBoard e := by
  constructor
  · rintro ⟨e, he⟩
    by_contra hcc
    push Not at hcc
    rw [(C110_board q hq level t l _ hr hc).2 ⟨hcc, rfl⟩] at he
    cases he
  · rintro ⟨e, he, hb⟩
    rcases (C58_always_returns (F := F) (Lay.toText q level l)).2.1 with ⟨r, h⟩ | h
    · exact absurd (((C110_board q hq level t l r hr hc).1 h).1 e he) hb
    · exact h

/-- Which elements change: the saved footprint reads with as many elements, and each is what it
was exactly if it is one of those C20 lists as surviving. -/
theorem C110_elements (q : Str → Bool) (hq : QuotesWhenNeeded q) (level : Int) (t : Str)
    (m r : Fp.Module F) (hr : Fp.parse t = .ok m) (hn : Clean m.name)
    (hs : ∀ e ∈ m.elements, ∀ s ∈ strings e, Clean s)
    (h : Fp.parse (Fp.toText q level m) = .ok r) :
    r.name = m.name ∧ r.elements.length = m.elements.length ∧
    ∀ (i : Nat) (e : Fp.Elem F), m.elements[i]? = some e → (r.elements[i]? = some e ↔ Resavable e) := by
  obtain ⟨hb, rfl⟩ := (C110_footprint q hq level t m r hr hn hs).1 h
  refine ⟨rfl, by simp [settle], fun i e he => ?_⟩
  have hm : e ∈ m.elements := List.mem_of_getElem? he
  simp only [settle, List.getElem?_map, he, Option.map_some, Option.some.injEq]
  exact settleElem_iff e (hb e hm)

/-- The same for boards; everything outside the elements is as it was. -/
theorem C110_board_elements (q : Str → Bool) (hq : QuotesWhenNeeded q) (level : Int) (t : Str)
    (l r : Lay.Layout F) (hr : Lay.parse t = .ok l) (hc : CleanLayout l)
    (h : Lay.parse (Lay.toText q level l) = .ok r) :
    { r with elements := l.elements } = l ∧ r.elements.length = l.elements.length ∧
    ∀ (i : Nat) (e : Lay.Elem F), l.elements[i]? = some e → (r.elements[i]? = some e ↔ ResavableBoard e) := by
  obtain ⟨hb, rfl⟩ := (C110_board q hq level t l r hr hc).1 h
  refine ⟨rfl, by simp [settleBoard], fun i e he => ?_⟩
  have hm : e ∈ l.elements := List.mem_of_getElem? he
  simp only [settleBoard, List.getElem?_map, he, Option.map_some, Option.some.injEq]
  exact settleBoardElem_iff e (hb e hm)

/-- From then on nothing changes: what was read from the saved file is saved as that same file,
character for character, and so reads as itself. -/
theorem C110_settled (q : Str → Bool) (hq : QuotesWhenNeeded q) (level : Int) (t : Str)
    (m r : Fp.Module F) (hr : Fp.parse t = .ok m) (hn : Clean m.name)
    (hs : ∀ e ∈ m.elements, ∀ s ∈ strings e, Clean s)
    (h : Fp.parse (Fp.toText q level m) = .ok r) :
    Fp.toText q level r = Fp.toText q level m ∧ Fp.parse (Fp.toText q level r) = .ok r := by
  obtain ⟨hb, he⟩ := (C110_footprint q hq level t m r hr hn hs).1 h
  have : Fp.toText q level r = Fp.toText q level m := by
    rw [Fp.toText, Fp.toText, he, Fp.Module.ser_settle m hb]
  exact ⟨this, by rw [this]; exact h⟩

/-- The same for boards. -/
theorem C110_board_settled (q : Str → Bool) (hq : QuotesWhenNeeded q) (level : Int) (t : Str)
    (l r : Lay.Layout F) (hr : Lay.parse t = .ok l) (hc : CleanLayout l)
    (h : Lay.parse (Lay.toText q level l) = .ok r) :
    Lay.toText q level r = Lay.toText q level l ∧ Lay.parse (Lay.toText q level r) = .ok r := by
  obtain ⟨hb, he⟩ := (C110_board q hq level t l r hr hc).1 h
  have : Lay.toText q level r = Lay.toText q level l := by
    rw [Lay.toText, Lay.toText, he, Lay.Layout.ser_settle l hb]
  exact ⟨this, by rw [this]; exact h⟩

/-! A footprint with letters of no size, a hole without a width and a hole almost round. -/

/-- The file. -/
def Spec.unsettledText : Str :=
  str! "(module A (layer F.Cu) (fp_text user x (at 0 0) (layer F.SilkS) (effects (font (size -1 0) (thickness 1)))) (pad 1 thru_hole circle (at 0 0) (size 2 2) (drill -1 2) (layers *.Cu)) (pad 2 thru_hole circle (at 5 0) (size 2 2) (drill 3 0) (layers *.Cu)))"

/-- What is read from it. -/
def Spec.unsettled : Fp.Module Nm :=
  match (Fp.parse Spec.unsettledText : Res (Fp.Module Nm)) with
  | .ok m => m
  | _ => ⟨[], []⟩

theorem Spec.unsettled_read : Fp.parse Spec.unsettledText = .ok Spec.unsettled := by
  have : (match (Fp.parse Spec.unsettledText : Res (Fp.Module Nm)) with | .ok _ => true | _ => false) =
    true := by decide +kernel
  unfold Spec.unsettled
  split at this
  · rename_i m h; rw [h]
  · cases this

/-- The hypotheses of the theorems hold of it, it can be read back, and it is not what it was. -/
example : Clean Spec.unsettled.name ∧ (∀ e ∈ Spec.unsettled.elements, ∀ s ∈ strings e, Clean s) ∧
    settle Spec.unsettled ≠ Spec.unsettled ∧ settle (settle Spec.unsettled) = settle Spec.unsettled := by
  decide +kernel

theorem Spec.unsettled_reads : ∀ e ∈ Spec.unsettled.elements, ReadsBack e := by
  have : Spec.unsettled.elements.all (fun e => match e with
    | .pad p => p.rectDelta.isNone && p.drill.all (fun d => lt zero d.width ||
        (lt zero d.height && lt eps (Flt.abs (sub d.height d.width))))
    | .tedit i => decide (0 ≤ i)
    | .tstamp i => decide (0 ≤ i)
    | _ => true) = true := by decide +kernel
  intro e he
  have h := List.all_eq_true.1 this e he
  cases e with
  | pad p =>
    simp only [Bool.and_eq_true, Option.isNone_iff_eq_none] at h
    refine ⟨h.1, fun d hd => ?_⟩
    rw [hd] at h
    have h2 := h.2
    simp only [Option.all_some, Bool.or_eq_true, Bool.and_eq_true] at h2
    exact h2
  | tedit i => exact of_decide_eq_true (p := 0 ≤ i) h
  | tstamp i => exact of_decide_eq_true (p := 0 ≤ i) h
  | _ => trivial

/-- A board with such a footprint. -/
example : (match (Lay.parse (str! "(kicad_pcb (module A (pad 1 thru_hole circle (at 0 0) (size 2 2) (drill -1 2) (layers *.Cu))))") :
    Res (Lay.Layout Nm)) with
    | .ok ⟨_, _, _, _, _, _, [.module_ m]⟩ => decide (m ≠ settle m)
    | _ => false) = true := by decide +kernel

end Verif

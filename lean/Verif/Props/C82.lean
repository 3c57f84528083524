import Verif.Spec.Build
import Verif.Props.C19
import Verif.Props.C35
/-!
# C82: what is built with the constructors survives saving and reading
-/

namespace Verif
open Flt Fp Spec Sx

set_option linter.unusedSectionVars false

variable {F : Type} [Flt F] [TextLaws F] [ZeroLaws F]

theorem Fp.appendLayers (ls : List Layer) (p : Pad F) :
    ls.foldl Pad.appendLayer p = { p with layers := p.layers ++ ls } := by
  induction ls generalizing p with
  | nil => simp
  | cons l ls ih => simp [ih, Pad.appendLayer]

theorem Spec.FpPart.make_pad (name : Str) (t : PadType) (shape : PadShape) (x y rot w h : F)
    (layers : List Layer) (net : Option Net) (drill : Option F) :
    (FpPart.pad name t shape x y rot w h layers net drill).make =
      .pad ⟨name, t, shape, ⟨w, h, .size⟩, none, ⟨x, y, rot⟩, layers, net, none,
        drill.map fun d => ⟨none, d, d, zero, zero⟩, none, none, none, none⟩ := by
  simp only [FpPart.make, Fp.appendLayers]
  cases net <;> cases drill <;>
    simp [Pad.setNet, Pad.setDrill, Pad.new, Drill.dflt, At.new, Xy.newEmpty]

/-- A part made with the constructors is the part that was asked for. -/
theorem C82_part_as_asked (p : FpPart F) : p.Shows p.make := by
  cases p with
  | pad name t shape x y rot w h layers net drill =>
    rw [FpPart.make_pad]
    cases drill <;> simp [FpPart.Shows]
  | poly points layer width =>
    simp [FpPart.Shows, FpPart.make, Xy.new, Function.comp_def]
  | _ => simp [FpPart.Shows, FpPart.make, FpText.setEffects, FpText.setLayer, Effects.fromFont, FpText.new,
      At.new, FpLine.make, Layer.dflt, FpLine.dflt, FpCircle.dflt, FpArc.dflt]

theorem Spec.FpPart.make_good (p : FpPart F) (h : p.Fits) :
    GoodElem p.make ∧ ∀ s ∈ strings p.make, Clean s := by
  cases p with
  | text kind value x y rot layer w hh thickness italic justify =>
    obtain ⟨h1, h2, h3, h4, h5⟩ := h
    refine ⟨⟨h3, rfl, Or.inl h5⟩, ?_⟩
    simp only [FpPart.make, strings, FpText.setEffects, FpText.setLayer, FpText.new, List.mem_cons]
    rintro s (rfl | rfl | hs)
    · exact h1
    · exact h2
    · exact h4 s hs
  | pad name t shape x y rot w hh layers net drill =>
    obtain ⟨h1, h2, h3, h4⟩ := h
    rw [FpPart.make_pad]
    refine ⟨⟨rfl, rfl, fun l hl => (h2 l hl).1, fun n hn => (h3 n hn).1, by simp, ?_⟩, ?_⟩
    · rintro d hd
      rcases drill with _ | w'
      · simp at hd
      · simp only [Option.map_some, Option.some.injEq] at hd
        subst hd
        exact ⟨Or.inl rfl, h4 w' rfl, Or.inl rfl⟩
    · simp only [strings, List.mem_cons, List.mem_append, List.mem_flatMap]
      rintro s (rfl | ⟨l, hl, hs⟩ | hs)
      · exact h1
      · exact (h2 l hl).2 s hs
      · rcases net with _ | n
        · simp at hs
        · simp only [List.mem_cons, List.not_mem_nil, or_false] at hs
          subst hs; exact (h3 n rfl).2
  | silkLine x1 y1 x2 y2 width =>
    refine ⟨⟨fun s hs => ?_, rfl, rfl⟩, ?_⟩
    · simp [FpLine.make] at hs
    · simp [FpPart.make, strings, FpLine.make, layerStrings]
  | line x1 y1 x2 y2 layer width => exact ⟨⟨h.1, rfl, rfl⟩, h.2⟩
  | circle x y ex ey layer width => exact ⟨⟨h.1, rfl, rfl⟩, h.2⟩
  | arc x y ex ey angle layer width => exact ⟨⟨h.1, rfl, rfl⟩, h.2⟩
  | poly points layer width => exact ⟨h.1, h.2⟩

theorem Spec.buildModule_eq (name : Str) (parts : List (FpPart F)) :
    buildModule name parts = ⟨name, parts.map FpPart.make⟩ := by
  have : ∀ m : Module F, parts.foldl (fun m p => m.append p.make) m =
      { m with elements := m.elements ++ parts.map FpPart.make } := by
    induction parts with
    | nil => simp
    | cons p ps ih => intro m; rw [List.foldl_cons, ih]; simp [Module.append]
  simp [buildModule, this, Module.new]

theorem Spec.FpPart.shows_all (parts : List (FpPart F)) :
    List.Forall₂ FpPart.Shows parts (parts.map FpPart.make) := by
  induction parts with
  | nil => exact .nil
  | cons p ps ih => exact .cons (C82_part_as_asked p) ih

/-- A footprint built from nothing with the constructors and setters can be saved
and read, and the footprint that is read consists of exactly the parts that were
asked for, in their order. -/
theorem C82_built_footprint (q : Str → Bool) (hq : QuotesWhenNeeded q) (level : Int) (name : Str)
    (hn : Clean name) (parts : List (FpPart F)) (h : ∀ p ∈ parts, p.Fits) (w : Str) (hw : Blank w) :
    ∃ m, Fp.parse (Fp.toText q level (buildModule name parts) ++ w) = .ok m ∧ m.name = name ∧
      List.Forall₂ FpPart.Shows parts m.elements := by
  refine ⟨buildModule name parts, C19_footprint_roundtrip q hq level _ ?_ w hw, ?_⟩
  · rw [buildModule_eq]
    refine ⟨hn, fun e he => ?_⟩
    obtain ⟨p, hp, rfl⟩ := List.mem_map.1 he
    exact p.make_good (h p hp)
  · rw [buildModule_eq]
    exact ⟨rfl, FpPart.shows_all parts⟩

/-- A board part made from the defaults is the part that was asked for. -/
theorem C82_board_part_as_asked (p : LayPart F) : p.Shows p.make := by
  cases p with
  | footprint name parts =>
    simp only [LayPart.Shows, LayPart.make, buildModule_eq]
    exact ⟨trivial, FpPart.shows_all parts⟩
  | _ => simp [LayPart.Shows, LayPart.make, At.new, Lay.Via.dflt]

theorem Spec.LayPart.make_good (p : LayPart F) (h : p.Fits) :
    GoodBoardElem p.make ∧ (∀ s ∈ boardStrings p.make, Clean s) ∧ boardTrees p.make = [] := by
  cases p with
  | footprint name parts =>
    obtain ⟨h1, h2⟩ := h
    simp only [LayPart.make, buildModule_eq]
    refine ⟨fun e he => ?_, ?_, rfl⟩
    · obtain ⟨p, hp, rfl⟩ := List.mem_map.1 he
      exact (p.make_good (h2 p hp)).1
    · simp only [boardStrings, List.mem_cons, List.mem_flatMap, List.mem_map]
      rintro s (rfl | ⟨e, ⟨p, hp, rfl⟩, hs⟩)
      · exact h1
      · exact (p.make_good (h2 p hp)).2 s hs
  | text value x y rot layer w =>
    obtain ⟨h1, h2, h3, h4⟩ := h
    refine ⟨⟨h2, rfl, Or.inl h4⟩, ?_, rfl⟩
    simp only [LayPart.make, boardStrings, Lay.GrText.dflt, Option.toList_none, List.append_nil,
      List.mem_cons]
    rintro s (rfl | hs)
    · exact h1
    · exact h3 s hs
  | line x1 y1 x2 y2 layer width =>
    exact ⟨h.1, by simpa [LayPart.make, boardStrings, Lay.GrLine.dflt] using h.2, rfl⟩
  | arc x y ex ey angle layer width =>
    exact ⟨h.1, by simpa [LayPart.make, boardStrings, Lay.GrArc.dflt] using h.2, rfl⟩
  | circle x y ex ey layer width =>
    exact ⟨h.1, by simpa [LayPart.make, boardStrings, Lay.GrCircle.dflt] using h.2, rfl⟩
  | track x1 y1 x2 y2 width layer net =>
    exact ⟨⟨h.1, h.2.2⟩, by simpa [LayPart.make, boardStrings, Lay.Segment.dflt] using h.2.1, rfl⟩
  | via x y size drill layers net =>
    refine ⟨⟨fun l hl => (h.1 l hl).1, h.2⟩, ?_, rfl⟩
    simp only [LayPart.make, boardStrings, List.mem_flatMap]
    rintro s ⟨l, hl, hs⟩
    exact (h.1 l hl).2 s hs

/-- A board built from `Layout::default()` by adding elements made from their
defaults can be saved and read, and what is read consists of exactly the parts
that were asked for, in their order. -/
theorem C82_built_board (q : Str → Bool) (hq : QuotesWhenNeeded q) (level : Int)
    (parts : List (LayPart F)) (h : ∀ p ∈ parts, p.Fits) (w : Str) (hw : Blank w) :
    ∃ l, Lay.parse (Lay.toText q level (buildLayout parts) ++ w) = .ok l ∧
      List.Forall₂ LayPart.Shows parts l.elements := by
  refine ⟨buildLayout parts, C35_layout_roundtrip q hq level _ ?_ ?_ w hw, ?_⟩
  · refine ⟨(by decide : inI64 4), ?_, by simp [buildLayout, Lay.Layout.dflt],
      by simp [buildLayout, Lay.Layout.dflt], fun e he => ?_⟩
    · simp only [buildLayout, Lay.Layout.dflt, Lay.General.dflt, GoodGeneral]; decide
    · obtain ⟨p, hp, rfl⟩ := List.mem_map.1 he
      exact (p.make_good (h p hp)).1
  · refine ⟨?_, fun e he => ?_⟩
    · simp only [headerStrings, buildLayout, Lay.Layout.dflt, Lay.Host.dflt]
      decide
    · obtain ⟨p, hp, rfl⟩ := List.mem_map.1 he
      obtain ⟨-, h2, h3⟩ := p.make_good (h p hp)
      exact ⟨h2, by simp [h3]⟩
  · show List.Forall₂ _ parts (parts.map LayPart.make)
    clear h
    induction parts with
    | nil => exact .nil
    | cons p ps ih => exact .cons (C82_board_part_as_asked p) ih

/-- The defaults are blank: no length, no name, no net, nothing optional. -/
theorem C82_blank :
    (LayPart.line zero zero zero zero ⟨.front, .cu⟩ zero).Shows (.grLine (Lay.GrLine.dflt : Lay.GrLine F)) ∧
    (LayPart.arc zero zero zero zero zero ⟨.front, .cu⟩ zero).Shows (.grArc (Lay.GrArc.dflt : Lay.GrArc F)) ∧
    (LayPart.circle zero zero zero zero ⟨.front, .cu⟩ zero).Shows
      (.grCircle (Lay.GrCircle.dflt : Lay.GrCircle F)) ∧
    (LayPart.track zero zero zero zero zero ⟨.front, .cu⟩ 0).Shows
      (.segment (Lay.Segment.dflt : Lay.Segment F)) ∧
    (LayPart.via zero zero zero zero [] 0).Shows (.via (Lay.Via.dflt : Lay.Via F)) ∧
    (FpPart.poly [] ⟨.front, .cu⟩ zero).Shows (.poly (FpPoly.dflt : FpPoly F)) ∧
    (Lay.GrLine.dflt : Lay.GrLine F).tstamp = none ∧ (Lay.GrLine.dflt : Lay.GrLine F).angle = zero ∧
    (Lay.GrArc.dflt : Lay.GrArc F).tstamp = none ∧ (Lay.GrCircle.dflt : Lay.GrCircle F).tstamp = none ∧
    (Lay.Segment.dflt : Lay.Segment F).tstamp = none ∧ (Lay.Segment.dflt : Lay.Segment F).status = none ∧
    (Lay.GrText.dflt : Lay.GrText F).value = [] ∧ (Lay.GrText.dflt : Lay.GrText F).tstamp = none ∧
    (Lay.GrText.dflt : Lay.GrText F).at_ = ⟨zero, zero, zero⟩ := by
  simp [LayPart.Shows, FpPart.Shows, Lay.GrLine.dflt, Lay.GrArc.dflt, Lay.GrCircle.dflt, Lay.Segment.dflt,
    Lay.Via.dflt, FpPoly.dflt, Lay.GrText.dflt, Xy.dflt, At.dflt, Layer.dflt]

/-- The words `start`, `end` and `center` in the list of a line, an arc, a circle
or a track. -/
def Spec.corners : Sexp → List Str
  | .list (_ :: .list (.str a :: _) :: .list (.str b :: _) :: _) => [a, b]
  | _ => []

/-- A footprint line, circle or arc made from its default is written with the
words of the format. -/
theorem C82_footprint_words (x1 y1 x2 y2 a width : F) (l : Layer) :
    corners (FpPart.line x1 y1 x2 y2 l width).make.ser = [str! "start", str! "end"] ∧
    corners (FpPart.circle x1 y1 x2 y2 l width).make.ser = [str! "center", str! "end"] ∧
    corners (FpPart.arc x1 y1 x2 y2 a l width).make.ser = [str! "start", str! "end"] :=
  ⟨rfl, rfl, rfl⟩

/-- A board line, circle, arc or track made from its default is not: both points
are written as `xy`, whatever their coordinates.  This library reads them
(`C82_built_board`), because it does not look at the words. -/
theorem C82_board_words_wrong (x1 y1 x2 y2 a width : F) (l : Layer) (net : Int) :
    corners (LayPart.line x1 y1 x2 y2 l width).make.ser = [str! "xy", str! "xy"] ∧
    corners (LayPart.circle x1 y1 x2 y2 l width).make.ser = [str! "xy", str! "xy"] ∧
    corners (LayPart.arc x1 y1 x2 y2 a l width).make.ser = [str! "xy", str! "xy"] ∧
    corners (LayPart.track x1 y1 x2 y2 width l net).make.ser = [str! "xy", str! "xy"] :=
  ⟨rfl, rfl, rfl, rfl⟩

/-- In a footprint the words matter: a line whose points were replaced by points
of another type (for instance `Xy::new(x, y, XyType::Xy)`) is read without any
error as a line from the origin to the origin. -/
theorem C82_wrong_word_loses_line (l : FpLine F) (hl : GoodLayer l.layer) (h1 : l.start.t ≠ .start)
    (h2 : l.end_.t ≠ .end_) :
    Elem.de (Elem.line l).ser = .ok (.line { l with start := ⟨zero, zero, .start⟩,
                                                    end_ := ⟨zero, zero, .end_⟩ }) := by
  rw [Elem.ser, Elem.de_list (n := str! "fp_line") rfl]
  have : FpLine.de l.ser = .ok { l with start := ⟨zero, zero, .start⟩, end_ := ⟨zero, zero, .end_⟩ } := by
    simp only [FpLine.ser, FpLine.de, iter_node, Res.bind_ok, maybe_ok (Xy.de_ser _), h1, h2, if_false,
      maybe_ok (Layer.de_ser _ hl), maybe_ok (inList_width l.width)]
    simp [FpLine.dflt, Xy.newEmpty, close]
  rw [this]; rfl

/-- Three parts of a footprint. -/
def Spec.sampleParts : List (FpPart Nm) :=
  [.text (str! "reference") (str! "REF**") ⟨0⟩ ⟨-1000000⟩ ⟨0⟩ ⟨.front, .silkS⟩ ⟨1000000⟩ ⟨1000000⟩ ⟨150000⟩
     false (some .mirror),
   .pad (str! "1") .pth .circle ⟨0⟩ ⟨0⟩ ⟨90000000⟩ ⟨1500000⟩ ⟨1500000⟩ [⟨.both, .cu⟩, ⟨.both, .mask⟩]
     (some ⟨1, str! "GND"⟩) (some ⟨800000⟩),
   .silkLine ⟨0⟩ ⟨0⟩ ⟨1⟩ ⟨1⟩ ⟨150000⟩]

/-- A board with that footprint, a track and a via. -/
def Spec.sampleBoardParts : List (LayPart Nm) :=
  [.footprint (str! "R_0805") sampleParts, .track ⟨1⟩ ⟨2⟩ ⟨3⟩ ⟨4⟩ ⟨5⟩ ⟨.front, .cu⟩ 1,
   .via ⟨1⟩ ⟨2⟩ ⟨3⟩ ⟨4⟩ [⟨.front, .cu⟩, ⟨.back, .cu⟩] (-1)]

theorem Spec.sampleParts_fits : ∀ p ∈ sampleParts, p.Fits := by
  simp only [sampleParts, List.forall_mem_cons, List.not_mem_nil, false_imp_iff, implies_true,
    and_true]
  refine ⟨⟨by decide, by decide, fun s hs => by simp at hs, by decide, by decide⟩,
    ⟨by decide, fun l hl => ?_, fun n hn => ?_, fun d hd => ?_⟩, trivial⟩
  · rcases List.mem_cons.1 hl with rfl | hl
    · exact ⟨fun s hs => by simp at hs, by decide⟩
    · rw [List.mem_singleton] at hl; subst hl
      exact ⟨fun s hs => by simp at hs, by decide⟩
  · cases hn; exact ⟨by decide, by decide⟩
  · cases hd; decide

example : ∃ m, Fp.parse (Fp.toText Fm.stdQuote 0 (buildModule (str! "R_0805") sampleParts) ++ str! "\n")
    = .ok m ∧ m.name = str! "R_0805" ∧ List.Forall₂ FpPart.Shows sampleParts m.elements :=
  C82_built_footprint _ Spec.stdQuote_quotes 0 _ (by decide) _ Spec.sampleParts_fits _ (by unfold Blank; decide)

example : ∃ l, Lay.parse (Lay.toText Fm.stdQuote 0 (buildLayout
      sampleBoardParts) ++ str! "\n") = .ok l ∧
    List.Forall₂ LayPart.Shows sampleBoardParts l.elements := by
  refine C82_built_board _ Spec.stdQuote_quotes 0 _ ?_ _ (by unfold Blank; decide)
  simp only [sampleBoardParts, List.forall_mem_cons, List.not_mem_nil, false_imp_iff, implies_true,
    and_true]
  refine ⟨⟨by decide, Spec.sampleParts_fits⟩, ⟨fun s hs => by simp at hs, by decide, by decide⟩,
    fun l hl => ?_, by decide⟩
  rcases List.mem_cons.1 hl with rfl | hl
  · exact ⟨fun s hs => by simp at hs, by decide⟩
  · rw [List.mem_singleton] at hl; subst hl
    exact ⟨fun s hs => by simp at hs, by decide⟩

example : ∃ l : FpLine Nm, GoodLayer l.layer ∧ l.start.t ≠ .start ∧ l.end_.t ≠ .end_ ∧ l.start.x ≠ zero :=
  ⟨⟨⟨⟨1⟩, ⟨2⟩, .xy⟩, ⟨⟨3⟩, ⟨4⟩, .xy⟩, ⟨.front, .cu⟩, ⟨1⟩⟩, fun s hs => by simp at hs, by decide, by decide,
   by decide⟩

end Verif

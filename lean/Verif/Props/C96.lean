import Verif.Lemmas.LayMsg
import Verif.Basic.Nm
import Verif.Props.C93
/-!
# C96: the messages about footprints and boards name the first part at fault

A message made by the footprint or the board reader itself appears exactly for the trees
described in `Spec/TreeBlame.lean`: everything in front of the part it is about can be read, and
the part has the fault the message names.  Faults in optional parts of a pad are blamed on the
name of the part instead.
-/

namespace Verif
open Spec

variable {F : Type} [Flt F] (disp : Sexp → Str) (dbg : F → Str)

/-- The outcomes are those of the reader of footprints without messages. -/
theorem C96_footprint_outcome (t : Str) : (Fp.Msg.parse disp dbg t).forget = Fp.parse t := Fp.Msg.forget_parse ..

/-- The outcomes are those of the reader of boards without messages. -/
theorem C96_board_outcome (t : Str) : (Lay.Msg.parse disp dbg t).forget = Lay.parse t := Lay.Msg.forget_parse ..

/-- Exactly these texts get this message of the footprint reader. -/
theorem C96_footprint (t m : Str) :
    Fp.Msg.parse disp dbg t = .own m ↔ ∃ e, TreeText t e ∧ ModuleTells F disp dbg e m := by
  unfold Fp.Msg.parse
  rw [Answer.lift_bind_own]
  simp only [parseSexp_iff, Fp.Msg.module_own]

/-- Exactly these texts get this message of the board reader. -/
theorem C96_board (t m : Str) :
    Lay.Msg.parse disp dbg t = .own m ↔ ∃ e, TreeText t e ∧ BoardTells F disp dbg e m := by
  unfold Lay.Msg.parse
  rw [Answer.lift_bind_own]
  simp only [parseSexp_iff, Lay.Msg.layout_own]

/-- What follows the element at fault does not change the message about a footprint. -/
theorem C96_footprint_rest (name : Str) (pre post post' : List Sexp) (x : Sexp) (m : Str)
    (hp : ∀ y ∈ pre, Reads (ElemTree (F := F)) y) (hx : ElemTells F disp dbg x m) :
    Fp.Msg.module_ disp dbg (.list (.str (str! "module") :: .str name :: (pre ++ x :: post))) = .own m ∧
    Fp.Msg.module_ disp dbg (.list (.str (str! "module") :: .str name :: (pre ++ x :: post'))) = .own m := by
  constructor <;>
  exact (Fp.Msg.module_own ..).2 ⟨_, rfl, .next ⟨name, rfl⟩ (.rest ⟨pre, x, _, rfl, hp, hx⟩)⟩

/-- A wrong layer in the list of layers of a pad: the message does not name it. -/
theorem C96_pad_layers_misnamed (name t shape : Str) (at_ size : Sexp) (words rest : List Sexp)
    (ht : t ∈ padTypes.map Prod.fst) (hs : shape ∈ padShapes.map Prod.fst) (ha : Reads (AtTree (F := F)) at_)
    (hz : Reads (XyTree (F := F)) size) (hl : ¬ Reads LayersTree (.list (.str (str! "layers") :: words))) :
    Fp.Msg.pad disp dbg (.list (.str (str! "pad") :: .str name :: .str t :: .str shape :: at_ :: size ::
      .list (.str (str! "layers") :: words) :: rest)) = .own (str! "unknown part layers") := by
  rw [Fp.Msg.pad_own]
  refine ⟨_, rfl, .next ⟨name, rfl⟩ (.next ⟨t, rfl, ht⟩ (.next ⟨shape, rfl, hs⟩ (.taken ha (.taken hz
    (.absent ?_ (.absent ?_ (.rest (.inl ⟨[], _, rest, rfl, by simp, .inl ⟨_, words, rfl, by decide, rfl⟩⟩))))))))⟩
  · rintro x r h ⟨d, hd⟩
    cases h
    obtain ⟨_, _, _, _, _, _, h, _⟩ := hd
    cases h
  · intro x r h
    cases h
    exact hl

/-! ## Through the file functions -/

/-- The texts of errors come from the readers: `own m` is what symbolic_expressions shows for a
message `m` made by a reader of /repo (external crate). -/
def Spec.Relays (F : Type) [Flt F] (disp : Sexp → Str) (dbg : F → Str) (own : Str → Str) (tx : Files.Texts) : Prop :=
  (∀ t m, (Fp.Msg.parse disp dbg t : Answer (Fp.Module F)) = .own m → tx.module_ t = own m) ∧
  (∀ t m, (Lay.Msg.parse disp dbg t : Answer (Lay.Layout F)) = .own m → tx.layout t = own m)

/-- A text with the mark of one kind is rejected by the readers of the others. -/
theorem Files.others_reject (name s : Str) (k k' : FileKind) (h : Files.HasMark s (Files.mark k)) (hk : k' ≠ k) :
    ∃ e, RejectsWith F name s e k' := by
  by_cases h' : ∃ e, RejectsWith F name s e k'
  · exact h'
  · exact absurd (Files.mark_inj k' k (Files.hasMark_unique s _ _ (Files.live_mark name s k' h') h)) hk

/-- Reading a footprint file with a fault fails with the message about the first part at
fault, as an error of the kind "Symbolic Expression". -/
theorem C96_read_module (own : Str → Str) (tx : Files.Texts) (hx : Relays F disp dbg own tx) (d : Files.Disk)
    (name t m : Str) (e : Sexp) (hd : d.read name = some t) (ht : TreeText t e) (hm : ModuleTells F disp dbg e m) :
    (Files.tryModule tx d name : Tried (Fp.Module F)) = .err ⟨.sexp, own m⟩ := by
  have hp := (C96_footprint disp dbg t m).2 ⟨e, ht, hm⟩
  have hr : (Fp.parse t : Res (Fp.Module F)) = .err .sexp := by
    rw [← C96_footprint_outcome disp dbg, hp]; rfl
  refine ((C93_tells (F := F) tx d name _).1).2 (.inr ⟨t, hd, .inr ⟨fun k hk => ?_, hr, (hx.1 t m hp).symm⟩⟩)
  exact absurd hk (by cases k <;> simp [FileKind.place])

/-- Reading a board file with a fault fails with the message about the first part at fault,
although the readers of footprints and schematics are tried before. -/
theorem C96_read_layout (own : Str → Str) (tx : Files.Texts) (hx : Relays F disp dbg own tx) (d : Files.Disk)
    (name t m : Str) (e : Sexp) (hd : d.read name = some t) (ht : TreeText t e) (hm : BoardTells F disp dbg e m) :
    (Files.tryLayout tx d name : Tried (Lay.Layout F)) = .err ⟨.sexp, own m⟩ := by
  have hp := (C96_board disp dbg t m).2 ⟨e, ht, hm⟩
  have hr : (Lay.parse t : Res (Lay.Layout F)) = .err .sexp := by
    rw [← C96_board_outcome disp dbg, hp]; rfl
  have hmark : Files.HasMark t (Files.mark .layout) := by
    have hp' := hp
    unfold Lay.Msg.parse at hp'
    rw [Answer.lift_bind_own] at hp'
    obtain ⟨e', he', hl⟩ := hp'
    unfold Lay.Msg.layout at hl
    rw [Answer.lift_bind_own] at hl
    obtain ⟨i, hi, _⟩ := hl
    by_cases hh : ∃ r, e' = .list (.str (str! "kicad_pcb") :: r)
    · obtain ⟨r, rfl⟩ := hh
      exact ⟨r, he'⟩
    · obtain ⟨x, hx⟩ := Files.iter_err _ _ hh
      rw [hi] at hx
      cases hx
  refine ((C93_tells (F := F) tx d name _).2.2.1).2 (.inr ⟨t, hd, .inr ⟨fun k hk => ?_, hr, (hx.2 t m hp).symm⟩⟩)
  exact Files.others_reject name t .layout k hmark (by rintro rfl; exact absurd hk (Nat.lt_irrefl _))

/-! ## Examples -/

/-- Whether an outcome is this message. -/
def isMsg {α : Type} (x : Answer α) (m : Str) : Bool :=
  match x with
  | .own m' => m' == m
  | _ => false

theorem isMsg_iff {α : Type} {x : Answer α} {m : Str} : isMsg x m = true ↔ x = .own m := by
  cases x <;> simp [isMsg]

/-- Texts as the readers make them. -/
def C96_texts : Files.Texts where
  read := fun _ => []
  create := fun _ => []
  write := fun _ => []
  module_ := fun t => match (Fp.Msg.parse (F := Nm) (fun _ => []) (fun _ => []) t) with | .own m => m | _ => []
  layout := fun t => match (Lay.Msg.parse (F := Nm) (fun _ => []) (fun _ => []) t) with | .own m => m | _ => []
  table := fun _ => []

example : Relays Nm (fun _ => []) (fun _ => []) id C96_texts := by
  constructor <;> intro t m h <;> simp [C96_texts, h]

/-- A board file with a wrong word, read by `read_layout`. -/
example : (Files.tryLayout C96_texts ⟨fun _ => some (str! "(kicad_pcb (segment (start 1 2) (stop 3 4)))")⟩ (str! "b.kicad_pcb") :
    Tried (Lay.Layout Nm)) = .err ⟨.sexp, str! "unknown XyType stop"⟩ := by
  have h : (Lay.Msg.parse (F := Nm) (fun _ => []) (fun _ => []) (str! "(kicad_pcb (segment (start 1 2) (stop 3 4)))")) =
      .own (str! "unknown XyType stop") := by
    have : isMsg (Lay.Msg.parse (F := Nm) (fun _ => []) (fun _ => []) (str! "(kicad_pcb (segment (start 1 2) (stop 3 4)))"))
      (str! "unknown XyType stop") = true := by decide +kernel
    exact isMsg_iff.1 this
  obtain ⟨e, he, hm⟩ := (C96_board ..).1 h
  exact C96_read_layout (fun _ => []) (fun _ => []) id C96_texts
    (by constructor <;> intro t m h <;> simp [C96_texts, h]) _ _ _ _ e rfl he hm


example : isMsg (Fp.Msg.parse (F := Nm) (fun _ => []) (fun _ => [])
    (str! "(module R (layer F.Cu) (pad 1 smd round (at 0 0)) (foo))")) (str! "unknown PadShape: round") = true := by
  decide +kernel

example : isMsg (Fp.Msg.parse (F := Nm) (fun _ => []) (fun _ => [])
    (str! "(module R locked (pad 1 smd rect (at 0 0) (size 1 1) (layers F.Cu X.Cu)))")) (str! "unknown part layers") = true := by
  decide +kernel

example : isMsg (Fp.Msg.parse (F := Nm) (fun _ => []) (fun _ => str! "5")
    (str! "(module R (pad 1 smd rect (clearance 1) (thickness 5) (thermal_gap 2)))")) (str! "pad: unknown Thickness(5)") = true := by
  decide +kernel

example : isMsg (Lay.Msg.parse (F := Nm) (fun _ => str! "shown") (fun _ => [])
    (str! "(kicad_pcb (page A4) (layers (0 F.Cu signal) (31 B.Cu copper)))")) (str! "unknown layertype copper in shown") = true := by
  decide +kernel

example : isMsg (Lay.Msg.parse (F := Nm) (fun _ => []) (fun _ => [])
    (str! "(kicad_pcb (foo bar) (segment (start 1 2) (stop 3 4)))")) (str! "unknown XyType stop") = true := by
  decide +kernel

example : isMsg (Lay.Msg.parse (F := Nm) (fun _ => []) (fun _ => [])
    (str! "(kicad_pcb (via micro (at 1 2) (size 1) (layers Q.Cu)))")) (str! "unknown layer side Q") = true := by
  decide +kernel

end Verif

import Verif.Model.Layout.Notes
import Verif.Props.C110
/-!
# C112: what reading a board logs
-/

namespace Verif
open Flt Spec

namespace Spec
open Lay

variable {F : Type} [Flt F]

/-- What has to be said about an element: that it, or a part of it, was not understood. -/
def notices : Lay.Elem F → List Note
  | .other s => [.element s]
  | .zone z => z.other.map .zonePart
  | _ => []

/-- A board every part of which was understood. -/
def Understood (l : Layout F) : Prop := ∀ e ∈ l.elements, boardTrees e = []

end Spec

namespace Lay
open Sx

variable {F : Type} [Flt F]

theorem Noted.bind_res {α β : Type} (x : Noted α) (f : α → Noted β) :
    (x >>= f).res = x.res >>= fun a => (f a).res := by
  show (Noted.bind x f).res = _
  unfold Noted.bind
  cases x.res <;> rfl

theorem Noted.bind_ok {α β : Type} {x : Noted α} {a : α} (h : x.res = .ok a) (f : α → Noted β) :
    (x >>= f).notes = x.notes ++ (f a).notes := by
  show (Noted.bind x f).notes = _
  unfold Noted.bind
  rw [h]

theorem Noted.bind_not_ok {α β : Type} {x : Noted α} (h : ∀ a, x.res ≠ .ok a) (f : α → Noted β) :
    (x >>= f).notes = x.notes := by
  show (Noted.bind x f).notes = _
  unfold Noted.bind
  cases hx : x.res with
  | ok a => exact absurd hx (h a)
  | err e => rfl
  | panic => rfl
  | diverge => rfl

@[simp] theorem Noted.of_res {α : Type} (r : Res α) : (Noted.of r).res = r := rfl

@[simp] theorem Noted.of_notes {α : Type} (r : Res α) : (Noted.of r).notes = [] := rfl

theorem Noted.of_bind_ok {α β : Type} (a : α) (f : α → Noted β) : (Noted.of (.ok a) >>= f) = f a := by
  show Noted.bind _ f = _
  simp [Noted.bind, Noted.of]

theorem Zone.fillRestNoted_spec : ∀ (r : List Sexp) (z : Zone F),
    (Zone.fillRestNoted z r).res = .ok (Zone.fillRest z r) ∧
    (Zone.fillRest z r).other.map Note.zonePart =
      z.other.map Note.zonePart ++ (Zone.fillRestNoted z r).notes
  | [], z => ⟨rfl, by simp [Zone.fillRest, Zone.fillRestNoted, Noted.of]⟩
  | x :: r, z => by
    have last : (do
          Noted.note (.zonePart x)
          Zone.fillRestNoted { z with other := z.other ++ [x] } r : Noted (Zone F)).res =
          .ok (Zone.fillRest { z with other := z.other ++ [x] } r) ∧
        (Zone.fillRest { z with other := z.other ++ [x] } r).other.map Note.zonePart =
          z.other.map Note.zonePart ++ (do
          Noted.note (.zonePart x)
          Zone.fillRestNoted { z with other := z.other ++ [x] } r : Noted (Zone F)).notes := by
      obtain ⟨h1, h2⟩ := Zone.fillRestNoted_spec r { z with other := z.other ++ [x] }
      constructor
      · rw [Noted.bind_res]
        exact h1
      · rw [h2, Noted.bind_ok (a := ()) rfl]
        simp [Noted.note]
    cases p1 : single (str! "polygon") (Fp.Pts.de (F := F)) x with
    | ok v => simp only [Zone.fillRest, Zone.fillRestNoted, p1]; exact Zone.fillRestNoted_spec r _
    | _ =>
      cases p2 : single (str! "filled_polygon") (Fp.Pts.de (F := F)) x with
      | ok v => simp only [Zone.fillRest, Zone.fillRestNoted, p1, p2]; exact Zone.fillRestNoted_spec r _
      | _ =>
        cases p3 : single (str! "fill_segments") (Fp.Pts.de (F := F)) x with
        | ok v =>
          simp only [Zone.fillRest, Zone.fillRestNoted, p1, p2, p3]; exact Zone.fillRestNoted_spec r _
        | _ => simp only [Zone.fillRest, Zone.fillRestNoted, p1, p2, p3]; exact last

theorem Zone.deNoted_res (s : Sexp) : (Zone.deNoted s : Noted (Zone F)).res = Zone.de s := by
  simp only [Zone.deNoted, Zone.de, Noted.bind_res, Noted.of_res, (Zone.fillRestNoted_spec _ _).1]

theorem Zone.deNoted_notes {s : Sexp} {z : Zone F} (h : Zone.de s = .ok z) :
    (Zone.deNoted s : Noted (Zone F)).notes = z.other.map .zonePart := by
  simp only [Zone.de, Res.bind_eq_ok] at h
  obtain ⟨i, h0, ⟨a1, i1⟩, h1, ⟨a2, i2⟩, h2, ⟨a3, i3⟩, h3, ⟨a4, i4⟩, h4, ⟨a5, i5⟩, h5, ⟨a6, i6⟩, h6,
    ⟨a7, i7⟩, h7, ⟨a8, i8⟩, h8, ⟨a9, i9⟩, h9, ⟨a10, i10⟩, h10, h⟩ := h
  rw [← Res.ok.inj h, (Zone.fillRestNoted_spec _ _).2]
  simp only [Zone.deNoted, h0, h1, h2, h3, h4, h5, h6, h7, h8, h9, h10, Noted.of_bind_ok, List.map_nil,
    List.nil_append]

/-- What a step adds to the elements is what it logs about. -/
theorem Layout.stepNoted_spec (l : Layout F) (e : Sexp) :
    (l.stepNoted e).res = l.step e ∧
    ∀ l', l.step e = .ok l' →
      l'.elements.flatMap notices = l.elements.flatMap notices ++ (l.stepNoted e).notes := by
  cases hn : listName e with
  | err x => simp [Layout.stepNoted, Layout.step, hn, Noted.bind_res]
  | panic => simp [Layout.stepNoted, Layout.step, hn, Noted.bind_res]
  | diverge => simp [Layout.stepNoted, Layout.step, hn, Noted.bind_res]
  | ok n =>
    simp only [Layout.stepNoted, hn, Noted.of_bind_ok]
    by_cases hq : n ∈ quietNames
    · simp only [hq, if_true, Noted.of_res, Noted.of_notes, List.append_nil, true_and]
      intro l' h
      simp only [Layout.step, hn, Res.bind_ok] at h
      simp only [quietNames, List.mem_cons, List.not_mem_nil, or_false] at hq
      rcases hq with rfl | rfl | rfl | rfl | rfl | rfl | rfl | rfl | rfl | rfl | rfl | rfl | rfl |
        rfl | rfl | rfl <;>
      · replace h := h
        simp (decide := true) only [if_true, if_false, Res.bind_eq_ok, Res.ok.injEq] at h
        obtain ⟨v, _, rfl⟩ := h
        simp [notices]
    · simp only [hq, if_false]
      simp only [quietNames, List.mem_cons, List.not_mem_nil, or_false, not_or] at hq
      obtain ⟨q1, q2, q3, q4, q5, q6, q7, q8, q9, q10, q11, q12, q13, q14, q15, q16⟩ := hq
      simp only [Layout.step, hn, Res.bind_ok, if_neg q1, if_neg q2, if_neg q3, if_neg q4, if_neg q5,
        if_neg q6, if_neg q7, if_neg q8, if_neg q9, if_neg q10, if_neg q11, if_neg q12, if_neg q13,
        if_neg q14, if_neg q15, if_neg q16]
      by_cases hz : n = str! "zone"
      · simp only [hz, if_true, Noted.bind_res, Zone.deNoted_res, Noted.of_res, true_and]
        intro l' h
        obtain ⟨v, hv, h⟩ := Res.bind_eq_ok.1 h
        rw [← Res.ok.inj h, Noted.bind_ok (by rw [Zone.deNoted_res]; exact hv), Zone.deNoted_notes hv]
        simp [notices, Noted.of]
      · simp only [hz, if_false, Noted.bind_res]
        refine ⟨rfl, fun l' h => ?_⟩
        rw [← Res.ok.inj h, Noted.bind_ok (a := ()) rfl]
        simp [notices, Noted.note, Noted.of]

theorem Layout.fillNoted_spec : ∀ (r : List Sexp) (l : Layout F),
    (l.fillNoted r).res = l.fill r ∧
    ∀ l', l.fill r = .ok l' →
      l'.elements.flatMap notices = l.elements.flatMap notices ++ (l.fillNoted r).notes
  | [], l => ⟨rfl, fun l' h => by
      rw [← Res.ok.inj h]
      simp [Layout.fillNoted, Noted.of]⟩
  | e :: r, l => by
    obtain ⟨h1, h2⟩ := Layout.stepNoted_spec l e
    constructor
    · simp only [Layout.fillNoted, Layout.fill, Noted.bind_res, h1]
      congr 1
      funext l'
      exact (Layout.fillNoted_spec r l').1
    · intro l' h
      simp only [Layout.fill, Res.bind_eq_ok] at h
      obtain ⟨m, hm, h⟩ := h
      rw [Layout.fillNoted, Noted.bind_ok (h1.trans hm), (Layout.fillNoted_spec r m).2 l' h, h2 m hm,
        List.append_assoc]

/-- The notes about the first sections come first. -/
theorem Layout.fillNoted_append : ∀ (a b : List Sexp) (l l' : Layout F), l.fill a = .ok l' →
    (l.fillNoted (a ++ b)).notes = (l.fillNoted a).notes ++ (l'.fillNoted b).notes
  | [], b, l, l', h => by rw [← Res.ok.inj h]; simp [Layout.fillNoted, Noted.of]
  | e :: a, b, l, l', h => by
    obtain ⟨m, hm, h⟩ := Res.bind_eq_ok.1 h
    have h1 := (Layout.stepNoted_spec l e).1.trans hm
    rw [List.cons_append, Layout.fillNoted, Noted.bind_ok h1, Layout.fillNoted, Noted.bind_ok h1,
      Layout.fillNoted_append a b m l' h, List.append_assoc]

end Lay

variable {F : Type} [Flt F]

/-- Logging does not change what is read. -/
theorem C112_same (t : Str) : (Lay.parseNoted t : Lay.Noted (Lay.Layout F)).res = Lay.parse t := by
  simp only [Lay.parseNoted, Lay.Layout.deNoted, Lay.parse, Lay.Layout.de, Lay.Noted.bind_res,
    Lay.Noted.of_res, (Lay.Layout.fillNoted_spec _ _).1]

/-- Reading a board logs one record for every section and every part of a zone that was not
understood, in the order of the file, and nothing else. -/
theorem C112_notices (t : Str) (l : Lay.Layout F) (h : Lay.parse t = .ok l) :
    (Lay.parseNoted t : Lay.Noted (Lay.Layout F)).notes = l.elements.flatMap notices := by
  simp only [Lay.parse, Lay.Layout.de, Res.bind_eq_ok] at h
  obtain ⟨s, hs, i, hi, h⟩ := h
  have := (Lay.Layout.fillNoted_spec i Lay.Layout.dflt).2 l h
  rw [this]
  simp only [Lay.parseNoted, Lay.Layout.deNoted, hs, hi, Lay.Noted.of_bind_ok]
  simp [Lay.Layout.dflt]

/-- Reading is silent exactly if everything was understood. -/
theorem C112_silent (t : Str) (l : Lay.Layout F) (h : Lay.parse t = .ok l) :
    (Lay.parseNoted t : Lay.Noted (Lay.Layout F)).notes = [] ↔ Understood l := by
  rw [C112_notices t l h, List.flatMap_eq_nil_iff]
  refine forall₂_congr fun e _ => ?_
  cases e <;> simp [notices, boardTrees]

/-- The records name exactly the trees the board keeps without understanding them. -/
theorem C112_kept (t : Str) (l : Lay.Layout F) (h : Lay.parse t = .ok l) :
    (Lay.parseNoted t : Lay.Noted (Lay.Layout F)).notes.map
        (fun n => match n with | .element s => s | .zonePart s => s) =
      l.elements.flatMap boardTrees := by
  rw [C112_notices t l h, List.map_flatMap]
  congr 1
  funext e
  cases e with
  | zone z => exact (List.map_map ..).trans (List.map_id _)
  | _ => rfl

/-- Reading a saved board logs the same as reading the file it came from did. -/
theorem C112_resaved [TextLaws F] [ZeroLaws F] [SelfLaws F] (q : Str → Bool)
    (hq : QuotesWhenNeeded q) (level : Int) (t : Str)
    (l r : Lay.Layout F) (hr : Lay.parse t = .ok l) (hc : CleanLayout l)
    (h : Lay.parse (Lay.toText q level l) = .ok r) :
    (Lay.parseNoted (Lay.toText q level l) : Lay.Noted (Lay.Layout F)).notes =
      (Lay.parseNoted t : Lay.Noted (Lay.Layout F)).notes := by
  have he := ((C110_board q hq level t l r hr hc).1 h).2
  refine (C112_notices _ r h).trans (Eq.trans ?_ (C112_notices t l hr).symm)
  have hn : (fun e : Lay.Elem F => notices (settleBoardElem e)) = notices := by
    funext e
    cases e <;> rfl
  rw [he, settleBoard, List.flatMap_map, hn]

/-- When a later section cannot be read, what was logged about the earlier ones stays logged. -/
theorem C112_before_error (a b : List Sexp) (l : Lay.Layout F)
    (h : Lay.Layout.de (Sx.node (str! "kicad_pcb") a) = .ok l) :
    l.elements.flatMap notices <+:
      (Lay.Layout.deNoted (Sx.node (str! "kicad_pcb") (a ++ b)) : Lay.Noted (Lay.Layout F)).notes := by
  simp only [Lay.Layout.de, Sx.iter_node, Res.bind_ok] at h
  simp only [Lay.Layout.deNoted, Sx.iter_node, Lay.Noted.of_bind_ok]
  rw [Lay.Layout.fillNoted_append a b _ l h, (Lay.Layout.fillNoted_spec a Lay.Layout.dflt).2 l h]
  simp [Lay.Layout.dflt]

/-- A board with a section that is not known. -/
example : (match (Lay.parse (str! "(kicad_pcb (net 1 GND) (target x (at 1 2)) (page A3))") : Res (Lay.Layout Nm)) with
    | .ok l => (l.elements.flatMap notices).length
    | _ => 0) = 1 := by decide +kernel

end Verif

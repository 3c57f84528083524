import Verif.Props.C49
import Verif.Basic.Nm
import Verif.Spec.Footprint
import Verif.Lemmas.FpCheck
import Verif.Model.Layout.Data
import Verif.Model.SchematicApi
/-!
# C125: what boxes depend on
-/

namespace Verif
open Flt Spec

variable {F : Type}

/-! ## Specification -/

/-- Two elements of a footprint take up the same room: pads of the same place and size, graphics of
the same kind of layer with the same points.  Shape, layers, net and name of a pad, line width and
angle of an arc do not matter. -/
def Spec.SameRoom : Fp.Elem F → Fp.Elem F → Prop
  | .pad p, .pad q => q.at_ = p.at_ ∧ q.size = p.size
  | .poly p, .poly q => q.pts = p.pts ∧ q.layer.t = p.layer.t
  | .line p, .line q => q.start = p.start ∧ q.end_ = p.end_ ∧ q.layer.t = p.layer.t
  | .circle p, .circle q => q.center = p.center ∧ q.end_ = p.end_ ∧ q.layer.t = p.layer.t
  | .arc p, .arc q => q.start = p.start ∧ q.end_ = p.end_ ∧ q.layer.t = p.layer.t
  | _, _ => False

/-- All pads and fabrication graphics of one footprint have a counterpart in the other one. -/
def Spec.Covered (m m' : Fp.Module F) : Prop :=
  ∀ e ∈ m.elements, Counts e → ∃ e' ∈ m'.elements, SameRoom e e'

/-- Two footprints stand at the same place and take up the same room there. -/
def Spec.SameSpot [Flt F] (m m' : Fp.Module F) : Prop :=
  m'.at_ = m.at_ ∧ Covered m m' ∧ Covered m' m

/-- Two elements of a board take up the same room. -/
def Spec.SameArea [Flt F] : Lay.Elem F → Lay.Elem F → Prop
  | .module_ m, .module_ m' => SameSpot m m'
  | .grText t, .grText t' => t'.at_ = t.at_
  | .grLine t, .grLine t' => t'.start = t.start ∧ t'.end_ = t.end_
  | .grArc t, .grArc t' => t'.start = t.start ∧ t'.end_ = t.end_
  | .grCircle t, .grCircle t' => t'.center = t.center ∧ t'.end_ = t.end_
  | .segment t, .segment t' => t'.start = t.start ∧ t'.end_ = t.end_
  | .via t, .via t' => t'.at_ = t.at_ ∧ t'.size = t.size
  | .zone z, .zone z' => z'.polygons = z.polygons ∧ z'.filledPolygons = z.filledPolygons ∧
      z'.fillSegments = z.fillSegments
  | .dimension d, .dimension d' => d'.text.at_ = d.text.at_ ∧ d'.feature1 = d.feature1 ∧
      d'.feature2 = d.feature2 ∧ d'.crossbar = d.crossbar ∧ d'.arrow1a = d.arrow1a ∧
      d'.arrow1b = d.arrow1b ∧ d'.arrow2a = d.arrow2a ∧ d'.arrow2b = d.arrow2b
  | _, _ => False

/-- Elements of a board that take up room. -/
def Spec.Roomy : Lay.Elem F → Prop
  | .net _ | .netClass _ | .other _ => False
  | _ => True

/-- All parts of one board that take up room have a counterpart in the other one. -/
def Spec.CoveredOn [Flt F] (l l' : Lay.Layout F) : Prop :=
  ∀ e ∈ l.elements, Roomy e → ∃ e' ∈ l'.elements, SameArea e e'

variable [Flt F]

/-! ## Lemmas -/

namespace Unite

/-- The union of boxes, from a first one on. -/
def all (b : Bound F) (l : List (Bound F)) : Bound F := l.foldl Bound.update b

theorem all_append (b : Bound F) (l l' : List (Bound F)) : all b (l ++ l') = all (all b l) l' :=
  List.foldl_append

theorem right_comm [OrdLaws F] (a x y : Bound F) : (a.update x).update y = (a.update y).update x := by
  by_cases h : x.isBounded = true ∨ y.isBounded = true
  · rw [C49_update_assoc, C49_update_comm x y h, ← C49_update_assoc]
  · simp only [not_or, Bool.not_eq_true] at h
    simp [Bound.update, h.1, h.2]

theorem all_comm [OrdLaws F] (a x : Bound F) (l : List (Bound F)) :
    all (a.update x) l = (all a l).update x := by
  induction l generalizing a with
  | nil => rfl
  | cons y l ih =>
    change all ((a.update x).update y) l = (all (a.update y) l).update x
    rw [right_comm, ih]

theorem absorb_one [OrdLaws F] (b x : Bound F) (l : List (Bound F)) (hx : x ∈ l) :
    (all b l).update x = all b l := by
  induction l generalizing b with
  | nil => cases hx
  | cons y l ih =>
    rcases List.mem_cons.1 hx with rfl | h
    · change (all (b.update x) l).update x = all (b.update x) l
      rw [all_comm, C49_update_idem]
    · exact ih _ h

theorem absorb [OrdLaws F] (b : Bound F) (l l' : List (Bound F)) (h : ∀ x ∈ l', x ∈ l) :
    all (all b l) l' = all b l := by
  induction l' with
  | nil => rfl
  | cons y l' ih =>
    change all ((all b l).update y) l' = _
    rw [absorb_one b y l (h y (by simp))]
    exact ih fun x hx => h x (by simp [hx])

theorem all_swap [OrdLaws F] (b : Bound F) (l l' : List (Bound F)) :
    all (all b l) l' = all (all b l') l := by
  induction l generalizing b with
  | nil => rfl
  | cons y l ih =>
    change all (all (b.update y) l) l' = all ((all b l').update y) l
    rw [ih, all_comm]

/-- The union depends only on which boxes there are. -/
theorem all_set [OrdLaws F] (b : Bound F) (l l' : List (Bound F)) (h : ∀ x ∈ l, x ∈ l')
    (h' : ∀ x ∈ l', x ∈ l) : all b l' = all b l := by
  rw [← absorb b l' l h, all_swap, absorb b l l' h']

/-- Boxes without bounds can be left out. -/
theorem all_bounded (b : Bound F) (l : List (Bound F)) :
    all b l = all b (l.filter fun x => x.isBounded) := by
  induction l generalizing b with
  | nil => rfl
  | cons x l ih =>
    cases hx : x.isBounded
    · have : b.update x = b := by simp [Bound.update, hx]
      rw [List.filter_cons_of_neg (by simp [hx])]
      change all (b.update x) l = _
      rw [this, ih]
    · rw [List.filter_cons_of_pos (by simp [hx])]
      exact ih _

/-- The union depends only on which boxes with bounds there are. -/
theorem all_bounded_set [OrdLaws F] (b : Bound F) (l l' : List (Bound F))
    (h : ∀ x ∈ l, x.isBounded = true → x ∈ l') (h' : ∀ x ∈ l', x.isBounded = true → x ∈ l) :
    all b l' = all b l := by
  rw [all_bounded b l', all_bounded b l]
  refine all_set _ _ _ (fun x hx => ?_) fun x hx => ?_
  · rw [List.mem_filter] at hx ⊢
    exact ⟨h x hx.1 hx.2, hx.2⟩
  · rw [List.mem_filter] at hx ⊢
    exact ⟨h' x hx.1 hx.2, hx.2⟩

/-- What an element adds to the box of its footprint. -/
def share (x y : F) (e : Fp.Elem F) : Bound F :=
  if e.isGraphics && (e.isFab || e.isPad) then
    { e.bound with
      x1 := add e.bound.x1 x, y1 := add e.bound.y1 y, x2 := add e.bound.x2 x, y2 := add e.bound.y2 y }
  else Bound.dflt

theorem step_eq (x y : F) (b : Bound F) (e : Fp.Elem F) :
    Fp.Module.boundStep x y b e = b.update (share x y e) := by
  simp only [Fp.Module.boundStep, share]
  split <;> rfl

theorem bound_eq (m : Fp.Module F) : m.bound =
    (all (Bound.new m.at_.1 m.at_.2 m.at_.1 m.at_.2)
      (m.elements.map (share m.at_.1 m.at_.2))).swapIfNeeded := by
  simp only [Fp.Module.bound, all, List.foldl_map]
  congr 2
  funext b e
  exact step_eq _ _ b e

omit [Flt F] in
theorem counts_iff (e : Fp.Elem F) : (e.isGraphics && (e.isFab || e.isPad)) = true ↔ Counts e := by
  cases e <;> simp [Fp.Elem.isGraphics, Fp.Elem.isFab, Fp.Elem.isPad, Counts]

theorem share_bounded {x y : F} {e : Fp.Elem F} (h : (share x y e).isBounded = true) : Counts e := by
  rw [← counts_iff]
  by_contra hc
  rw [share, if_neg hc] at h
  exact absurd h (by simp [Bound.dflt])

theorem share_same {x y : F} {e e' : Fp.Elem F} (h : SameRoom e e') : share x y e' = share x y e := by
  have key : e'.isGraphics = e.isGraphics ∧ e'.isFab = e.isFab ∧ e'.isPad = e.isPad ∧
      e'.bound = e.bound := by
    cases e <;> cases e' <;> simp only [SameRoom] at h <;>
      refine ⟨rfl, by first | rfl | simp only [Fp.Elem.isFab, h], rfl, ?_⟩
    case pad.pad =>
      obtain ⟨h1, h2⟩ := h
      simp only [Fp.Elem.bound, Fp.Pad.bound]
      rw [h1, h2]
    all_goals simp only [Fp.Elem.bound, Fp.FpLine.bound, Fp.FpArc.bound, Fp.FpCircle.bound, h]
  simp only [share, key]

omit [Flt F] in
theorem room_refl (e : Fp.Elem F) (h : Counts e) : SameRoom e e := by
  cases e <;> simp_all [SameRoom, Counts]

theorem covered_shares {m m' : Fp.Module F} (h : Covered m m') (x y : F) :
    ∀ b ∈ m.elements.map (share x y), b.isBounded = true → b ∈ m'.elements.map (share x y) := by
  intro b hb hi
  obtain ⟨e, he, rfl⟩ := List.mem_map.1 hb
  obtain ⟨e', he', hs⟩ := h e he (share_bounded hi)
  exact List.mem_map.2 ⟨e', he', share_same hs⟩

theorem board_eq (l : Lay.Layout F) :
    l.bound = (all Bound.dflt (l.elements.map Lay.Elem.bound)).swapIfNeeded := by
  simp only [Lay.Layout.bound, all, List.foldl_map]

end Unite

/-! ## Theorems: footprints -/

/-- The box of a footprint depends only on its place and on the room its pads and its fabrication
graphics take up, each counted once and in any order. -/
theorem C125_footprint [OrdLaws F] (m m' : Fp.Module F) (h : SameSpot m m') : m'.bound = m.bound := by
  rw [Unite.bound_eq, Unite.bound_eq, h.1]
  rw [Unite.all_bounded_set _ (m.elements.map _) (m'.elements.map _)
    (Unite.covered_shares h.2.1 _ _) (Unite.covered_shares h.2.2 _ _)]

/-- Reordering the elements of a footprint, or dropping repetitions, leaves its box as it is, as long
as the first position stays the first one. -/
theorem C125_order [OrdLaws F] (n n' : Str) (es es' : List (Fp.Elem F)) (h : ∀ e, e ∈ es' ↔ e ∈ es)
    (ha : Fp.Module.firstAt es' = Fp.Module.firstAt es) :
    (Fp.Module.mk n' es').bound = (Fp.Module.mk n es).bound := by
  refine C125_footprint ⟨n, es⟩ ⟨n', es'⟩ ⟨?_, fun e he hc => ⟨e, (h e).2 he, Unite.room_refl e hc⟩,
    fun e he hc => ⟨e, (h e).1 he, Unite.room_refl e hc⟩⟩
  simp only [Fp.Module.at_, ha]

/-- Renaming nets and designators leaves the box of a footprint as it is. -/
theorem C125_rename [OrdLaws F] (m : Fp.Module F) (old new : Str) :
    (m.renameNet old new).bound = m.bound ∧ (m.setReference old new).bound = m.bound := by
  have key : ∀ f : Fp.Elem F → Fp.Elem F, (∀ e, Counts e → SameRoom e (f e)) →
      (∀ e, Counts (f e) → SameRoom (f e) e) →
      (∀ es, Fp.Module.firstAt (es.map f) = Fp.Module.firstAt es) →
      (Fp.Module.mk m.name (m.elements.map f)).bound = m.bound := by
    intro f h1 h2 h3
    refine C125_footprint m _ ⟨?_, fun e he hc => ⟨f e, List.mem_map.2 ⟨e, he, rfl⟩, h1 e hc⟩, ?_⟩
    · simp only [Fp.Module.at_, h3]
    · intro e he hc
      obtain ⟨d, hd, rfl⟩ := List.mem_map.1 he
      exact ⟨d, hd, h2 d hc⟩
  constructor
  · refine key _ (fun e h => ?_) (fun e h => ?_) fun es => ?_
    · cases e with
      | pad p => exact ⟨rfl, rfl⟩
      | _ => exact Unite.room_refl _ h
    · cases e with
      | pad p => exact ⟨rfl, rfl⟩
      | _ => exact Unite.room_refl _ h
    · induction es with
      | nil => rfl
      | cons e es ih => cases e <;> first | rfl | exact ih
  · refine key _ (fun e h => ?_) (fun e h => ?_) fun es => ?_
    · cases e with
      | text t => exact h.elim
      | _ => exact Unite.room_refl _ h
    · cases e with
      | text t =>
        simp only [Fp.Module.setReferenceElem] at h
        split at h <;> simp [Counts] at h
      | _ => exact Unite.room_refl _ h
    · induction es with
      | nil => rfl
      | cons e es ih =>
        cases e with
        | text t =>
          simp only [List.map_cons, Fp.Module.setReferenceElem]
          split <;> exact ih
        | _ => first | rfl | exact ih

/-- Fixing a footprint, which may draw a courtyard around it, leaves its box as it is. -/
theorem C125_fix [OrdLaws F] (m : Fp.Module F) (cfg : Config F) : (m.fix cfg).bound = m.bound := by
  have hk : Fp.nt (Fp.keptElems cfg m ++ Fp.addedText cfg m) = Fp.nt m.elements := by
    have := Fp.nt_fixTexts cfg m
    rwa [Fp.fixTexts_eq cfg m] at this
  have hb := Fp.bound_eq_of_nt (a := ⟨m.name, Fp.keptElems cfg m ++ Fp.addedText cfg m⟩) (b := m) hk
  rw [Fp.fix_eq, ← hb]
  have hx : ∀ e ∈ Fp.addedAttr m ++ Fp.addedLines m, ¬ Counts e ∧ ∀ a, e ≠ .at_ a := by
    intro e he
    rcases List.mem_append.1 he with h | h
    · simp only [Fp.addedAttr] at h
      split at h <;> simp at h
      subst h
      simp [Counts]
    · simp only [Fp.addedLines] at h
      split at h
      · simp only [Fp.courtyardLines, List.mem_cons, List.not_mem_nil, or_false] at h
        rcases h with rfl | rfl | rfl | rfl <;> simp [Counts, Fp.FpLine.make]
      · simp at h
  generalize Fp.keptElems cfg m ++ Fp.addedText cfg m = ks at *
  rw [List.append_assoc]
  generalize Fp.addedAttr m ++ Fp.addedLines m = xs at *
  have ha : Fp.Module.firstAt (ks ++ xs) = Fp.Module.firstAt ks := by
    clear hk hb
    induction ks with
    | nil =>
      induction xs with
      | nil => rfl
      | cons x xs ih =>
        have h1 := ih fun e he => hx e (by simp [he])
        cases x with
        | at_ a => exact absurd rfl ((hx _ (by simp)).2 a)
        | _ => exact h1
    | cons k ks ih => cases k <;> first | rfl | exact ih
  refine C125_footprint ⟨m.name, ks⟩ ⟨m.name, ks ++ xs⟩ ⟨?_, fun e he hc => ⟨e, by simp_all, Unite.room_refl e hc⟩,
    fun e he hc => ⟨e, ?_, Unite.room_refl e hc⟩⟩
  · simp only [Fp.Module.at_, ha]
  · rcases List.mem_append.1 he with h | h
    · exact h
    · exact absurd hc (hx e h).1

/-! ## Theorems: boards -/

/-- Parts of a board that take up the same room have the same box. -/
theorem C125_part [OrdLaws F] (e e' : Lay.Elem F) (h : SameArea e e') : e'.bound = e.bound := by
  cases e <;> cases e' <;> simp only [SameArea] at h
  case module_.module_ => exact C125_footprint _ _ h
  all_goals
    simp only [Lay.Elem.bound, Lay.GrText.bound, Lay.twoPoint, Lay.GrCircle.bound, Lay.Dimension.bound,
      Lay.Via.bound, Lay.Zone.bound, h]

/-- The box of a board depends only on the room its parts take up, each counted once and in any
order; nets, net classes, setup and heading do not matter. -/
theorem C125_board [OrdLaws F] (l l' : Lay.Layout F) (h : CoveredOn l l') (h' : CoveredOn l' l) :
    l'.bound = l.bound := by
  have key : ∀ l l' : Lay.Layout F, CoveredOn l l' → ∀ b ∈ l.elements.map Lay.Elem.bound,
      b.isBounded = true → b ∈ l'.elements.map Lay.Elem.bound := by
    intro l l' h b hb hi
    obtain ⟨e, he, rfl⟩ := List.mem_map.1 hb
    have hr : Roomy e := by
      cases e <;> trivial
    obtain ⟨e', he', hs⟩ := h e he hr
    exact List.mem_map.2 ⟨e', he', C125_part e e' hs⟩
  rw [Unite.board_eq, Unite.board_eq,
    Unite.all_bounded_set _ (l.elements.map _) (l'.elements.map _) (key l l' h) (key l' l h')]

theorem Unite.spot_refl (m : Fp.Module F) : SameSpot m m :=
  ⟨rfl, fun e he hc => ⟨e, he, Unite.room_refl e hc⟩, fun e he hc => ⟨e, he, Unite.room_refl e hc⟩⟩

theorem Unite.area_refl (e : Lay.Elem F) (h : Roomy e) : SameArea e e := by
  cases e <;> simp_all [SameArea, Roomy, Unite.spot_refl]

/-- Reordering the parts of a board leaves its box as it is. -/
theorem C125_board_order [OrdLaws F] (l l' : Lay.Layout F) (h : ∀ e, e ∈ l'.elements ↔ e ∈ l.elements) :
    l'.bound = l.bound :=
  C125_board l l' (fun e he hr => ⟨e, (h e).2 he, Unite.area_refl e hr⟩)
    fun e he hr => ⟨e, (h e).1 he, Unite.area_refl e hr⟩

omit [Flt F] in
theorem Unite.pads_at (u : Lay.Update) (es : List (Fp.Elem F)) :
    Fp.Module.firstAt (Lay.updatePads u es).1 = Fp.Module.firstAt es := by
  induction es with
  | nil => rfl
  | cons e es ih =>
    cases e with
    | pad p =>
      simp only [Lay.updatePads]
      split
      · split <;> first | rfl | exact ih
      · exact ih
    | at_ a => rfl
    | _ => exact ih

omit [Flt F] in
theorem Unite.pads_room (u : Lay.Update) (es : List (Fp.Elem F)) :
    (∀ e ∈ es, Counts e → ∃ e' ∈ (Lay.updatePads u es).1, SameRoom e e') ∧
    (∀ e ∈ (Lay.updatePads u es).1, Counts e → ∃ e' ∈ es, SameRoom e e') := by
  induction es with
  | nil => exact ⟨fun e he => (by cases he), fun e he => (by cases he)⟩
  | cons d es ih =>
    have key : ∀ (d' : Fp.Elem F) (r : List (Fp.Elem F)), (Counts d → SameRoom d d') →
        (Counts d' → SameRoom d' d) →
        ((∀ e ∈ es, Counts e → ∃ e' ∈ r, SameRoom e e') ∧ (∀ e ∈ r, Counts e → ∃ e' ∈ es, SameRoom e e')) →
        (∀ e ∈ d :: es, Counts e → ∃ e' ∈ d' :: r, SameRoom e e') ∧
        (∀ e ∈ d' :: r, Counts e → ∃ e' ∈ d :: es, SameRoom e e') := by
      intro d' r h1 h2 h3
      constructor
      · intro e he hc
        rcases List.mem_cons.1 he with rfl | he
        · exact ⟨d', by simp, h1 hc⟩
        · obtain ⟨e', h, hs⟩ := h3.1 e he hc
          exact ⟨e', by simp [h], hs⟩
      · intro e he hc
        rcases List.mem_cons.1 he with rfl | he
        · exact ⟨d, by simp, h2 hc⟩
        · obtain ⟨e', h, hs⟩ := h3.2 e he hc
          exact ⟨e', by simp [h], hs⟩
    have same : (∀ e ∈ es, Counts e → ∃ e' ∈ es, SameRoom e e') ∧
        (∀ e ∈ es, Counts e → ∃ e' ∈ es, SameRoom e e') :=
      ⟨fun e he hc => ⟨e, he, Unite.room_refl e hc⟩, fun e he hc => ⟨e, he, Unite.room_refl e hc⟩⟩
    cases d with
    | pad p =>
      simp only [Lay.updatePads]
      split
      · split
        · exact key _ _ (fun _ => ⟨rfl, rfl⟩) (fun _ => ⟨rfl, rfl⟩) same
        · exact key _ _ (fun _ => ⟨rfl, rfl⟩) (fun _ => ⟨rfl, rfl⟩) ih
      · exact key _ _ (fun _ => ⟨rfl, rfl⟩) (fun _ => ⟨rfl, rfl⟩) ih
    | _ => exact key _ _ (Unite.room_refl _) (Unite.room_refl _) ih

theorem Unite.update_area (u : Lay.Update) (e : Lay.Elem F) :
    (Roomy e → SameArea e (e.updateNames u).1) ∧
    (Roomy (e.updateNames u).1 → SameArea (e.updateNames u).1 e) := by
  cases e with
  | module_ m =>
    have h1 : (Fp.Module.mk m.name (Lay.updatePads u m.elements).1).at_ = m.at_ := by
      simp only [Fp.Module.at_, Unite.pads_at]
    have h2 := Unite.pads_room u m.elements
    exact ⟨fun _ => ⟨h1, h2.1, h2.2⟩, fun _ => ⟨h1.symm, h2.2, h2.1⟩⟩
  | net n => exact ⟨fun h => h.elim, fun h => h.elim⟩
  | netClass n => exact ⟨fun h => h.elim, fun h => h.elim⟩
  | other n => exact ⟨fun h => h.elim, fun h => h.elim⟩
  | zone z => exact ⟨fun _ => ⟨rfl, rfl, rfl⟩, fun _ => ⟨rfl, rfl, rfl⟩⟩
  | _ => exact ⟨Unite.area_refl _, Unite.area_refl _⟩

/-- Renaming nets of a board in whatever way, even if the call stops with an error, leaves its box as
it is. -/
theorem C125_board_rename [OrdLaws F] (l : Lay.Layout F) (u : Lay.Update) :
    (l.updateNetNames u).1.bound = l.bound := by
  have key : ∀ es : List (Lay.Elem F),
      (∀ e ∈ es, Roomy e → ∃ e' ∈ (Lay.updateElems u es).1, SameArea e e') ∧
      (∀ e ∈ (Lay.updateElems u es).1, Roomy e → ∃ e' ∈ es, SameArea e e') := by
    intro es
    induction es with
    | nil => exact ⟨fun e he => (by cases he), fun e he => (by cases he)⟩
    | cons d es ih =>
      have hd := Unite.update_area u d
      simp only [Lay.updateElems]
      rcases hu : d.updateNames u with ⟨d', _ | err⟩
      · rw [hu] at hd
        constructor
        · intro e he hc
          rcases List.mem_cons.1 he with rfl | he
          · exact ⟨d', by simp, hd.1 hc⟩
          · obtain ⟨e', h, hs⟩ := ih.1 e he hc
            exact ⟨e', by simp [h], hs⟩
        · intro e he hc
          rcases List.mem_cons.1 he with rfl | he
          · exact ⟨d, by simp, hd.2 hc⟩
          · obtain ⟨e', h, hs⟩ := ih.2 e he hc
            exact ⟨e', by simp [h], hs⟩
      · rw [hu] at hd
        constructor
        · intro e he hc
          rcases List.mem_cons.1 he with rfl | he
          · exact ⟨d', by simp, hd.1 hc⟩
          · exact ⟨e, by simp [he], Unite.area_refl e hc⟩
        · intro e he hc
          rcases List.mem_cons.1 he with rfl | he
          · exact ⟨d, by simp, hd.2 hc⟩
          · exact ⟨e, by simp [he], Unite.area_refl e hc⟩
  exact C125_board _ _ (key l.elements).1 (key l.elements).2

/-- Adding nets and net classes and changing the setup leaves the box of a board as it is. -/
theorem C125_board_additions [OrdLaws F] (l : Lay.Layout F) (num : Int) (name value : Str)
    (nc : Lay.NetClass F) :
    (l.addNet num name).bound = l.bound ∧ (l.addNetclass nc).bound = l.bound ∧
    ({ l with setup := l.setup.updateElement name value } : Lay.Layout F).bound = l.bound := by
  have key : ∀ d : Lay.Elem F, ¬ Roomy d →
      ({ l with elements := l.elements ++ [d] } : Lay.Layout F).bound = l.bound := by
    intro d hd
    refine C125_board l _ (fun e he hr => ⟨e, by simp [he], Unite.area_refl e hr⟩) fun e he hr => ?_
    rcases List.mem_append.1 he with h | h
    · exact ⟨e, h, Unite.area_refl e hr⟩
    · rw [List.mem_singleton] at h
      exact absurd (h ▸ hr) hd
  exact ⟨key _ id, key _ id, rfl⟩

/-! ## Theorems: schematics -/

theorem Unite.sheet_cases (s : Sch.Sheet) : (∃ b, (Sch.Sheet.bound s : Res (Bound F)) = .ok b) ∨
    (Sch.Sheet.bound s : Res (Bound F)) = .panic := by
  have hc : ∀ i, (∃ j, Sch.checkI64 i = .ok j) ∨ Sch.checkI64 i = .panic := by
    intro i
    rw [Sch.checkI64]
    split
    · exact Or.inl ⟨_, rfl⟩
    · exact Or.inr rfl
  rw [Sch.Sheet.bound]
  rcases hc (s.y - 100) with ⟨a, h1⟩ | h1
  · rcases hc (s.x + s.dimx) with ⟨b, h2⟩ | h2
    · rcases hc (s.y + s.dimy) with ⟨c, h3⟩ | h3
      · rcases hc (c + 100) with ⟨d, h4⟩ | h4
        · exact Or.inl ⟨_, by rw [h1, h2, h3]; change (Sch.checkI64 (c + 100) >>= _) = _; rw [h4]; rfl⟩
        · exact Or.inr (by rw [h1, h2, h3]; change (Sch.checkI64 (c + 100) >>= _) = _; rw [h4]; rfl)
      · exact Or.inr (by rw [h1, h2, h3]; rfl)
    · exact Or.inr (by rw [h1, h2]; rfl)
  · exact Or.inr (by rw [h1]; rfl)

theorem Unite.sheets_panic (l : List Sch.Sheet) (b b' : Bound F)
    (h : Sch.sheetsBound l b = (.panic : Res (Bound F))) : Sch.sheetsBound l b' = (.panic : Res (Bound F)) := by
  induction l generalizing b b' with
  | nil => cases h
  | cons s l ih =>
    rcases Unite.sheet_cases (F := F) s with ⟨c, hc⟩ | hc
    · rw [Sch.sheetsBound, hc] at h ⊢
      exact ih _ _ h
    · rw [Sch.sheetsBound, hc]
      rfl

theorem Unite.sheets_out (l : List Sch.Sheet) (b : Bound F) :
    (∃ c, Sch.sheetsBound l b = .ok c) ∨ Sch.sheetsBound l b = (.panic : Res (Bound F)) := by
  induction l generalizing b with
  | nil => exact Or.inl ⟨b, rfl⟩
  | cons s l ih =>
    rcases Unite.sheet_cases (F := F) s with ⟨c, hc⟩ | hc
    · rw [Sch.sheetsBound, hc]
      exact ih _
    · rw [Sch.sheetsBound, hc]
      exact Or.inr rfl

theorem Unite.sheets_perm [OrdLaws F] {l l' : List Sch.Sheet} (h : l'.Perm l) (b : Bound F) :
    Sch.sheetsBound l' b = Sch.sheetsBound l b := by
  induction h generalizing b with
  | nil => rfl
  | @cons s l l' _ ih =>
    rcases Unite.sheet_cases (F := F) s with ⟨c, hc⟩ | hc
    · simp only [Sch.sheetsBound, hc]
      exact ih _
    · simp only [Sch.sheetsBound, hc]
      rfl
  | swap x y l =>
    rcases Unite.sheet_cases (F := F) x with ⟨c, hc⟩ | hc <;>
      rcases Unite.sheet_cases (F := F) y with ⟨d, hd⟩ | hd <;>
        simp only [Sch.sheetsBound, hc, hd]
    · change Sch.sheetsBound l ((b.update d).update c) = Sch.sheetsBound l ((b.update c).update d)
      rw [Unite.right_comm]
    · rfl
    · rfl
  | trans _ _ ih1 ih2 => exact (ih1 b).trans (ih2 b)


/-- The box of a schematic, or the failure to compute it, does not depend on the order of its
elements and sheets. -/
theorem C125_schematic_order [OrdLaws F] (s s' : Sch.Schematic F) (h : s'.elements.Perm s.elements)
    (h' : s'.sheets.Perm s.sheets) : s'.bound = s.bound := by
  have h1 : s'.elements.foldl (fun b e => b.update e.bound) Bound.dflt =
      s.elements.foldl (fun b e => b.update e.bound) (Bound.dflt : Bound F) := by
    let : RightCommutative (fun (b : Bound F) (e : Sch.Element F) => b.update e.bound) :=
      ⟨fun a x y => Unite.right_comm a x.bound y.bound⟩
    exact h.foldl_eq _
  simp only [Sch.Schematic.bound, h1]
  generalize s.elements.foldl (fun b e => b.update e.bound) (Bound.dflt : Bound F) = b
  rw [Unite.sheets_perm h' b]

/-! ## Cases -/

/-- A pad of a given kind, the same size and at the same place each time. -/
def Spec.samplePad (name : Str) (t : Fp.PadType) (shape : Fp.PadShape) : Fp.Pad Nm :=
  { Fp.Pad.new name t shape with size := ⟨⟨4⟩, ⟨12⟩, .size⟩, at_ := ⟨⟨-2⟩, ⟨-6⟩, ⟨0⟩⟩ }

/-- Two footprints that take up the same room: one rectangular pad, and two round ones with other
numbers and a description. -/
example : ∃ m m' : Fp.Module Nm, SameSpot m m' ∧ m ≠ m' ∧
    (m.bound.x1 ≠ m.bound.x2 ∧ m.bound.y1 ≠ m.bound.y2) := by
  refine ⟨⟨str! "A", [.pad (samplePad (str! "1") .smd .rect), .at_ ⟨⟨10⟩, ⟨10⟩, ⟨0⟩⟩]⟩,
    ⟨str! "B", [.at_ ⟨⟨10⟩, ⟨10⟩, ⟨0⟩⟩, .descr (str! "x"), .pad (samplePad (str! "2") .pth .circle),
      .pad (samplePad (str! "3") .pth .circle)]⟩,
    ⟨rfl, ?_, ?_⟩, by decide, by decide⟩
  · intro e he hc
    simp only [List.mem_cons, List.not_mem_nil, or_false] at he
    rcases he with rfl | rfl
    · exact ⟨.pad (samplePad (str! "2") .pth .circle), by simp, ⟨rfl, rfl⟩⟩
    · exact hc.elim
  · intro e he hc
    simp only [List.mem_cons, List.not_mem_nil, or_false] at he
    rcases he with rfl | rfl | rfl | rfl
    · exact hc.elim
    · exact hc.elim
    · exact ⟨.pad (samplePad (str! "1") .smd .rect), by simp, ⟨rfl, rfl⟩⟩
    · exact ⟨.pad (samplePad (str! "1") .smd .rect), by simp, ⟨rfl, rfl⟩⟩

/-- The first position has to stay the first one. -/
example : ∃ es es' : List (Fp.Elem Nm), (∀ e, e ∈ es' ↔ e ∈ es) ∧
    (Fp.Module.mk [] es').bound ≠ (Fp.Module.mk [] es).bound :=
  ⟨[.at_ ⟨⟨1⟩, ⟨1⟩, ⟨0⟩⟩, .at_ ⟨⟨2⟩, ⟨2⟩, ⟨0⟩⟩], [.at_ ⟨⟨2⟩, ⟨2⟩, ⟨0⟩⟩, .at_ ⟨⟨1⟩, ⟨1⟩, ⟨0⟩⟩],
    fun e => by simp [or_comm], by decide⟩

/-- A board whose parts change places, next to one whose pads are renamed. -/
example : ∃ l l' : Lay.Layout Nm, (∀ e, e ∈ l'.elements ↔ e ∈ l.elements) ∧ l.elements.length = 3 ∧
    l'.elements.length = 2 ∧ l.bound = Bound.new ⟨-1⟩ ⟨-1⟩ ⟨8⟩ ⟨9⟩ :=
  ⟨{ Lay.Layout.dflt with elements := [.via ⟨false, false, ⟨⟨0⟩, ⟨0⟩, ⟨0⟩⟩, ⟨1⟩, ⟨1⟩, [], 1⟩,
      .segment ⟨⟨⟨8⟩, ⟨1⟩, .start⟩, ⟨⟨2⟩, ⟨9⟩, .end_⟩, ⟨1⟩, ⟨.front, .cu⟩, 1, none, none⟩,
      .via ⟨false, false, ⟨⟨0⟩, ⟨0⟩, ⟨0⟩⟩, ⟨1⟩, ⟨1⟩, [], 1⟩] },
    { Lay.Layout.dflt with elements := [
      .segment ⟨⟨⟨8⟩, ⟨1⟩, .start⟩, ⟨⟨2⟩, ⟨9⟩, .end_⟩, ⟨1⟩, ⟨.front, .cu⟩, 1, none, none⟩,
      .via ⟨false, false, ⟨⟨0⟩, ⟨0⟩, ⟨0⟩⟩, ⟨1⟩, ⟨1⟩, [], 1⟩] },
    fun e => by
      simp only [List.mem_cons, List.not_mem_nil, or_false]
      constructor
      · rintro (h | h)
        · exact Or.inr (Or.inl h)
        · exact Or.inl h
      · rintro (h | h | h)
        · exact Or.inr h
        · exact Or.inl h
        · exact Or.inr h, rfl, rfl, by decide⟩

/-- Fixing draws a courtyard, which is not part of the box. -/
example : ∃ m : Fp.Module Nm, (m.fix Config.klc).elements.length = m.elements.length + 6 ∧
    (m.fix Config.klc).bound = m.bound :=
  ⟨⟨str! "A", [.pad (Fp.Pad.new (str! "1") .smd .rect)]⟩, by decide, C125_fix _ _⟩

end Verif

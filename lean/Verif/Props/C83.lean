import Verif.Lemmas.Form
import Verif.Lemmas.TreeGrammar
import Verif.Props.C19
import Verif.Props.C35
import Verif.Props.C52
import Verif.Props.C82
/-!
# C83: what is saved has the form KiCad documents
-/

namespace Verif
open Flt Spec Sx Form

set_option linter.unusedSectionVars false

variable {F : Type} [Flt F] [TextLaws F]

/-- The points of an element carry the words of their places, holes have a width,
and whole numbers fit in 64 bits. -/
def Spec.Worded : Fp.Elem F → Prop
  | .pad p => p.size.t = .size ∧ (∀ d, p.rectDelta = some d → d.t = .rectDelta) ∧
      (∀ n, p.net = some n → inI64 n.num) ∧ (∀ i, p.zoneConnect = some i → inI64 i) ∧
      ∀ d, p.drill = some d → (d.shape = none ∨ d.shape = some (str! "oval")) ∧ lt zero d.width = true
  | .poly p => ∀ x ∈ p.pts, x.t = .xy
  | .line p => p.start.t = .start ∧ p.end_.t = .end_
  | .circle p => p.center.t = .center ∧ p.end_.t = .end_
  | .arc p => p.start.t = .start ∧ p.end_.t = .end_
  | _ => True

namespace Spec.Form

theorem at_form (a : Fp.At F) : atForm.Fits F [a.ser] :=
  fit_lst (fit_cons (fit_number _) (fit_cons (fit_number _) (fit_last (fit_if fun _ => fit_number _))))

theorem point_form (p : Fp.Xy F) : (pointForm p.t.show).Fits F [p.ser] :=
  fit_lst (fit_cons (fit_number _) (fit_cons (fit_number _) fit_nil))

theorem point_form' {p : Fp.Xy F} {t : Fp.XyType} (h : p.t = t) : (pointForm t.show).Fits F [p.ser] := by
  rw [← h]; exact point_form p

theorem pts_form {l : List (Fp.Xy F)} (h : ∀ x ∈ l, x.t = .xy) : ptsForm.Fits F [Fp.Pts.ser l] :=
  fit_lst (fit_last (fit_map fun x hx => point_form' (h x hx)))

theorem layer_form (s : Str) : layerForm.Fits F [pair (str! "layer") (.str s)] := fit_pair (fit_name _)

theorem layers_form (l : List Fp.Layer) : layersForm.Fits F [Fp.Layers.ser l] :=
  fit_lst (fit_last (fit_map fun _ _ => fit_name _))

theorem width_form (x : F) : widthForm.Fits F [pair (str! "width") (ofF x)] := fit_pair (fit_number _)

theorem xyz_form (n : Str) (p : Fp.Xyz F) : (xyzForm n).Fits F [pair n p.ser] :=
  fit_pair (fit_lst (fit_cons (fit_number _) (fit_cons (fit_number _) (fit_cons (fit_number _) fit_nil))))

theorem effects_form (e : Fp.Effects F) : effectsForm.Fits F [e.ser] := by
  refine fit_lst (fit_cons (fit_lst ?_) (fit_last (fit_opt e.justify (fun h => by rw [h]) fun j hj => ?_)))
  · rw [List.append_assoc]
    refine fit_app (fit_if fun _ => fit_lst (fit_cons (fit_number _) (fit_cons (fit_number _) fit_nil)))
      (fit_cons (fit_pair (fit_number _)) (fit_last (fit_if fun _ => fit_word _)))
  · rw [hj]; cases j <;> exact fit_pair (fit_oneOf (by simp) (fit_word _))

theorem net_form (n : Fp.Net) (h : inI64 n.num) : netForm.Fits F [n.ser] :=
  fit_lst (fit_cons (fit_whole h) (fit_cons (fit_name _) fit_nil))

theorem drill_form (d : Fp.Drill F) (h : d.shape = none ∨ d.shape = some (str! "oval"))
    (hw : lt zero d.width = true) : drillForm.Fits F [d.ser] := by
  refine fit_lst ?_
  rw [hw, if_pos rfl]
  simp only [List.append_assoc, List.cons_append, List.nil_append]
  refine fit_app ?_ (fit_cons (fit_number _) (fit_app (fit_if fun _ => fit_number _)
    (fit_last (fit_if fun _ => fit_lst (fit_cons (fit_number _) (fit_cons (fit_number _) fit_nil))))))
  rcases h with h | h <;> rw [h]
  · exact fit_none
  · exact fit_some (fit_word _)

theorem pad_form (p : Fp.Pad F) (h : Worded (.pad p)) : padForm.Fits F [p.ser] := by
  obtain ⟨h1, h2, h3, h4, h5⟩ := h
  refine fit_lst ?_
  simp only [List.append_assoc, List.cons_append, List.nil_append]
  refine fit_cons (fit_name _) (fit_cons ?_ (fit_cons ?_ (fit_cons (at_form _)
    (fit_cons (point_form' h1) (fit_app (fit_opt p.drill (fun h => by rw [h]) fun d hd => by
      rw [hd]; exact drill_form d (h5 d hd).1 (h5 d hd).2)
    (fit_app (fit_opt p.rectDelta (fun h => by rw [h]) fun d hd => by rw [hd]; exact point_form' (h2 d hd)) (fit_cons (layers_form _)
    (fit_app (fit_opt p.net (fun h => by rw [h]) fun n hn => by rw [hn]; exact net_form n (h3 n hn)) (fit_app (fit_optPair fun i hi => fit_whole (h4 i hi))
    (fit_app (fit_optPair fun _ _ => fit_number _) (fit_app (fit_optPair fun _ _ => fit_number _)
    (fit_app (fit_optPair fun _ _ => fit_number _) (fit_last (fit_optPair fun _ _ => fit_number _))))))))))))))
  · cases p.t <;> exact fit_oneOf (by simp [Fp.PadType.show]) (fit_word _)
  · cases p.shape <;> exact fit_oneOf (by simp [Fp.PadShape.show]) (fit_word _)

theorem item_form (e : Fp.Elem F) (h : Worded e) : itemForm.Fits F [e.ser] := by
  cases e with
  | solderMaskMargin x => exact fit_oneOf (a := lst (str! "solder_mask_margin") [number]) (by simp) (fit_pair (fit_number _))
  | layer l => exact fit_oneOf (a := layerForm) (by simp) (layer_form _)
  | descr s => exact fit_oneOf (a := lst (str! "descr") [name]) (by simp) (fit_pair (fit_name _))
  | tags s => exact fit_oneOf (a := lst (str! "tags") [name]) (by simp) (fit_pair (fit_name _))
  | attr s => exact fit_oneOf (a := lst (str! "attr") [name]) (by simp) (fit_pair (fit_name _))
  | path s => exact fit_oneOf (a := lst (str! "path") [name]) (by simp) (fit_pair (fit_name _))
  | tedit i => exact fit_oneOf (a := lst (str! "tedit") [hex]) (by simp) (fit_pair (fit_hex _))
  | tstamp i => exact fit_oneOf (a := lst (str! "tstamp") [hex]) (by simp) (fit_pair (fit_hex _))
  | clearance x => exact fit_oneOf (a := lst (str! "clearance") [number]) (by simp) (fit_pair (fit_number _))
  | at_ a => exact fit_oneOf (a := atForm) (by simp) (at_form a)
  | locked => exact fit_oneOf (a := word (str! "locked")) (by simp) (fit_word _)
  | pad p => exact fit_oneOf (a := padForm) (by simp) (pad_form p h)
  | text t =>
    refine fit_oneOf (a := textForm) (by simp) (fit_lst ?_)
    simp only [List.append_assoc, List.cons_append, List.nil_append]
    exact fit_cons (fit_name _) (fit_cons (fit_name _) (fit_cons (at_form _) (fit_cons (layer_form _)
      (fit_app (fit_if fun _ => fit_word _) (fit_cons (effects_form _) fit_nil)))))
  | poly p =>
    exact fit_oneOf (a := lst (str! "fp_poly") [ptsForm, layerForm, widthForm]) (by simp)
      (fit_lst (fit_cons (pts_form h) (fit_cons (layer_form _) (fit_cons (width_form _) fit_nil))))
  | line p =>
    exact fit_oneOf (a := lst (str! "fp_line") [pointForm (str! "start"), pointForm (str! "end"), layerForm,
        widthForm]) (by simp)
      (fit_lst (fit_cons (point_form' h.1) (fit_cons (point_form' h.2) (fit_cons (layer_form _)
        (fit_cons (width_form _) fit_nil)))))
  | circle p =>
    exact fit_oneOf (a := lst (str! "fp_circle") [pointForm (str! "center"), pointForm (str! "end"),
        layerForm, widthForm]) (by simp)
      (fit_lst (fit_cons (point_form' h.1) (fit_cons (point_form' h.2) (fit_cons (layer_form _)
        (fit_cons (width_form _) fit_nil)))))
  | arc p =>
    exact fit_oneOf (a := lst (str! "fp_arc") [pointForm (str! "start"), pointForm (str! "end"),
        lst (str! "angle") [number], layerForm, widthForm]) (by simp)
      (fit_lst (fit_cons (point_form' h.1) (fit_cons (point_form' h.2) (fit_cons (fit_pair (fit_number _))
        (fit_cons (layer_form _) (fit_cons (width_form _) fit_nil))))))
  | model m =>
    exact fit_oneOf (a := lst (str! "model") [name, xyzForm (str! "at"), xyzForm (str! "scale"),
        xyzForm (str! "rotate")]) (by simp)
      (fit_lst (fit_cons (fit_name _) (fit_cons (xyz_form _ _) (fit_cons (xyz_form _ _)
        (fit_cons (xyz_form _ _) fit_nil)))))

theorem module_form (m : Fp.Module F) (h : ∀ e ∈ m.elements, Worded e) : moduleForm.Fits F [m.ser] :=
  fit_lst (fit_cons (fit_name _) (fit_last (fit_map fun e he => item_form e (h e he))))

end Spec.Form

/-- The same for the elements of a board; foreign sections have foreign names. -/
def Spec.WordedBoard : Lay.Elem F → Prop
  | .module_ m => ∀ e ∈ m.elements, Worded e
  | .net n => inI64 n.num
  | .grLine l => l.start.t = .start ∧ l.end_.t = .end_
  | .grArc l => l.start.t = .start ∧ l.end_.t = .end_
  | .grCircle l => l.center.t = .center ∧ l.end_.t = .end_
  | .dimension d => ∀ l ∈ [d.feature1, d.feature2, d.crossbar, d.arrow1a, d.arrow1b, d.arrow2a, d.arrow2b],
      ∀ x ∈ l, x.t = .xy
  | .segment s => s.start.t = .start ∧ s.end_.t = .end_ ∧ inI64 s.net
  | .via v => inI64 v.net
  | .zone z => inI64 z.net ∧ inI64 z.fill.arcSegments ∧
      (∀ l ∈ z.polygons ++ z.filledPolygons ++ z.fillSegments.toList, ∀ x ∈ l, x.t = .xy) ∧
      ∀ s ∈ z.other, NotOutline s
  | .other s => UnknownSection s
  | _ => True

namespace Spec.Form

theorem grText_form (t : Lay.GrText F) : grTextForm.Fits F [t.ser] := by
  refine fit_lst ?_
  simp only [List.cons_append, List.nil_append]
  exact fit_cons (fit_name _) (fit_cons (at_form _) (fit_cons (layer_form _) (fit_cons (effects_form _)
    (fit_last (fit_optPair fun _ _ => fit_name _)))))

theorem ptsIn_form (n : Str) {l : List (Fp.Xy F)} (h : ∀ x ∈ l, x.t = .xy) :
    (ptsIn n).Fits F [pair n (Fp.Pts.ser l)] := fit_pair (pts_form h)

theorem allowed_form (n : Str) (b : Bool) : (allowedForm n).Fits F [pair n (.str (Lay.allowed b))] := by
  cases b <;> exact fit_pair (fit_oneOf (by simp [Lay.allowed]) (fit_word _))

theorem zone_form (z : Lay.Zone F) (h : WordedBoard (.zone z)) : zoneForm.Fits F [z.ser] := by
  obtain ⟨h1, h2, h3, h4⟩ := h
  refine fit_lst ?_
  simp only [List.append_assoc, List.cons_append, List.nil_append]
  refine fit_cons (fit_pair (fit_whole h1)) (fit_cons (fit_pair (fit_name _)) (fit_cons (layer_form _)
    (fit_cons (fit_pair (fit_name _)) (fit_cons (fit_lst (fit_cons (fit_name _) (fit_cons (fit_number _) fit_nil)))
    (fit_app (fit_if fun _ => fit_pair (fit_natural _)) (fit_cons (fit_lst ?_) (fit_cons (fit_pair (fit_number _))
    (fit_app (fit_opt z.keepout (fun h => by rw [h]) fun k hk => ?_) (fit_cons (fit_lst ?_)
    (fit_app (fit_map fun p hp => ptsIn_form _ (h3 p (by simp [hp])))
    (fit_app (fit_map fun p hp => ptsIn_form _ (h3 p (by simp [hp])))
    (fit_app (fit_optPair fun p hp => pts_form (h3 p (by simp [hp])))
    (fit_last (fit_many fun x hx => ⟨x, rfl, h4 x hx⟩))))))))))))))
  · exact fit_app (fit_opt z.connectPads.connection (fun h => by rw [h]) fun s hs => by
      rw [hs]; exact fit_name _) (fit_cons (fit_pair (fit_number _)) fit_nil)
  · rw [hk]
    exact fit_lst (fit_cons (allowed_form _ _) (fit_cons (allowed_form _ _) (fit_cons (allowed_form _ _) fit_nil)))
  · simp only [List.append_assoc, List.cons_append, List.nil_append]
    exact fit_app (fit_if fun _ => fit_word _) (fit_app (fit_if fun _ => fit_pair (fit_word _))
      (fit_cons (fit_pair (fit_whole h2)) (fit_cons (fit_pair (fit_number _)) (fit_cons (fit_pair (fit_number _))
      (fit_app (fit_optPair fun _ _ => fit_name _) (fit_last (fit_if fun _ => fit_pair (fit_number _))))))))

theorem netClass_form (n : Lay.NetClass F) : netClassForm.Fits F [n.ser] := by
  refine fit_lst ?_
  simp only [List.append_assoc, List.cons_append, List.nil_append]
  exact fit_cons (fit_name _) (fit_cons (fit_name _) (fit_cons (fit_pair (fit_number _))
    (fit_cons (fit_pair (fit_number _)) (fit_cons (fit_pair (fit_number _)) (fit_cons (fit_pair (fit_number _))
    (fit_cons (fit_pair (fit_number _)) (fit_cons (fit_pair (fit_number _))
    (fit_app (fit_optPair fun _ _ => fit_number _) (fit_app (fit_optPair fun _ _ => fit_number _)
    (fit_last (fit_map fun _ _ => fit_pair (fit_name _))))))))))))

theorem dimension_form (d : Lay.Dimension F) (h : WordedBoard (.dimension d)) :
    dimensionForm.Fits F [d.ser] := by
  simp only [WordedBoard, List.forall_mem_cons] at h
  obtain ⟨h1, h2, h3, h4, h5, h6, h7, -⟩ := h
  refine fit_lst ?_
  simp only [List.append_assoc, List.cons_append, List.nil_append]
  exact fit_cons (fit_name _) (fit_cons (width_form _) (fit_cons (layer_form _)
    (fit_app (fit_optPair fun _ _ => fit_name _) (fit_cons (grText_form _) (fit_cons (ptsIn_form _ h1)
    (fit_cons (ptsIn_form _ h2) (fit_cons (ptsIn_form _ h3) (fit_cons (ptsIn_form _ h4)
    (fit_cons (ptsIn_form _ h5) (fit_cons (ptsIn_form _ h6) (fit_cons (ptsIn_form _ h7) fit_nil)))))))))))

theorem boardItem_form (e : Lay.Elem F) (h : WordedBoard e) (ho : ∀ s, e ≠ .other s) :
    boardItemForm.Fits F [e.ser] := by
  cases e with
  | module_ m => exact fit_oneOf (a := moduleForm) (by simp) (module_form m h)
  | net n => exact fit_oneOf (a := netForm) (by simp) (net_form n h)
  | netClass n => exact fit_oneOf (a := netClassForm) (by simp) (netClass_form n)
  | grText t => exact fit_oneOf (a := grTextForm) (by simp) (grText_form t)
  | dimension d => exact fit_oneOf (a := dimensionForm) (by simp) (dimension_form d h)
  | zone z => exact fit_oneOf (a := zoneForm) (by simp) (zone_form z h)
  | other s => exact absurd rfl (ho s)
  | grLine l =>
    refine fit_oneOf (a := lst (str! "gr_line") [pointForm (str! "start"), pointForm (str! "end"),
      lst (str! "angle") [number], layerForm, widthForm, tstampForm]) (by simp) (fit_lst ?_)
    simp only [List.cons_append, List.nil_append]
    exact fit_cons (point_form' h.1) (fit_cons (point_form' h.2) (fit_cons (fit_pair (fit_number _))
      (fit_cons (layer_form _) (fit_cons (width_form _) (fit_last (fit_optPair fun _ _ => fit_name _))))))
  | grArc l =>
    refine fit_oneOf (a := lst (str! "gr_arc") [pointForm (str! "start"), pointForm (str! "end"),
      lst (str! "angle") [number], layerForm, widthForm, tstampForm]) (by simp) (fit_lst ?_)
    simp only [List.cons_append, List.nil_append]
    exact fit_cons (point_form' h.1) (fit_cons (point_form' h.2) (fit_cons (fit_pair (fit_number _))
      (fit_cons (layer_form _) (fit_cons (width_form _) (fit_last (fit_optPair fun _ _ => fit_name _))))))
  | grCircle l =>
    refine fit_oneOf (a := lst (str! "gr_circle") [pointForm (str! "center"), pointForm (str! "end"),
      layerForm, widthForm, tstampForm]) (by simp) (fit_lst ?_)
    simp only [List.cons_append, List.nil_append]
    exact fit_cons (point_form' h.1) (fit_cons (point_form' h.2)
      (fit_cons (layer_form _) (fit_cons (width_form _) (fit_last (fit_optPair fun _ _ => fit_name _)))))
  | segment l =>
    refine fit_oneOf (a := lst (str! "segment") [pointForm (str! "start"), pointForm (str! "end"),
      widthForm, layerForm, lst (str! "net") [whole], tstampForm, opt (lst (str! "status") [name])])
      (by simp) (fit_lst ?_)
    simp only [List.append_assoc, List.cons_append, List.nil_append]
    exact fit_cons (point_form' h.1) (fit_cons (point_form' h.2.1) (fit_cons (width_form _)
      (fit_cons (layer_form _) (fit_cons (fit_pair (fit_whole h.2.2))
      (fit_app (fit_optPair fun _ _ => fit_name _) (fit_last (fit_optPair fun _ _ => fit_name _)))))))
  | via v =>
    refine fit_oneOf (a := lst (str! "via") [opt (word (str! "blind")), opt (word (str! "micro")), atForm,
      lst (str! "size") [number], opt (lst (str! "drill") [number]), layersForm,
      lst (str! "net") [whole]]) (by simp) (fit_lst ?_)
    simp only [List.append_assoc, List.cons_append, List.nil_append]
    exact fit_app (fit_if fun _ => fit_word _) (fit_app (fit_if fun _ => fit_word _)
      (fit_cons (at_form _) (fit_cons (fit_pair (fit_number _))
      (fit_app (fit_if fun _ => fit_pair (fit_number _)) (fit_cons (layers_form _)
      (fit_cons (fit_pair (fit_whole h)) fit_nil))))))

theorem setting_form (s : Lay.SetupElement) : settingForm.Fits F [s.ser] := by
  refine fit_row ?_
  simp only [List.cons_append, List.nil_append]
  exact fit_cons (fit_name _) (fit_cons (fit_name _) (fit_last
    (fit_opt s.value2 (fun h => by rw [h]) fun v hv => by rw [hv]; exact fit_name _)))

theorem board_form (l : Lay.Layout F) (hv : inI64 l.version) (hg : GoodGeneral l.general)
    (hl : ∀ x ∈ l.layers, inI64 x.num) (he : ∀ e ∈ l.elements, WordedBoard e) :
    boardForm.Fits F [l.ser] := by
  obtain ⟨g1, g2, g3, g4, g5, g6, g7⟩ := hg
  refine fit_lst ?_
  simp only [List.cons_append, List.nil_append]
  refine fit_cons (fit_pair (fit_whole hv)) (fit_cons (fit_lst (fit_cons (fit_name _) (fit_cons (fit_name _) fit_nil)))
    (fit_cons (fit_lst ?_) (fit_cons (fit_pair (fit_name _)) (fit_cons (fit_lst (fit_last (fit_map fun x hx => ?_)))
    (fit_cons (fit_lst (fit_app (fit_map fun x _ => setting_form x)
      (fit_cons (fit_lst (fit_last (fit_map fun x _ => setting_form x))) fit_nil)))
    (fit_last (fit_map fun e hx => ?_)))))))
  · exact fit_cons (fit_pair (fit_whole g1)) (fit_cons (fit_pair (fit_whole g2))
      (fit_cons (fit_lst (fit_cons (fit_number _) (fit_cons (fit_number _) (fit_cons (fit_number _)
        (fit_cons (fit_number _) fit_nil)))))
      (fit_cons (fit_pair (fit_number _)) (fit_cons (fit_pair (fit_whole g3)) (fit_cons (fit_pair (fit_whole g4))
      (fit_cons (fit_pair (fit_whole g5)) (fit_cons (fit_pair (fit_whole g6))
      (fit_cons (fit_pair (fit_whole g7)) fit_nil))))))))
  · refine fit_row ?_
    simp only [List.cons_append, List.nil_append]
    refine fit_cons (fit_whole (hl x hx)) (fit_cons (fit_name _) (fit_cons ?_
      (fit_last (fit_if fun _ => fit_word _))))
    cases x.layerType <;> exact fit_oneOf (by simp [Lay.LayerType.show]) (fit_word _)
  · by_cases h : ∃ s, e = .other s
    · obtain ⟨s, rfl⟩ := h
      obtain ⟨n, r, rfl, hn⟩ := he _ hx
      refine Or.inr ⟨n, r, rfl, fun hm => hn ?_⟩
      simp only [boardWords, layoutSections, List.mem_cons, List.not_mem_nil, or_false] at hm ⊢
      tauto
    · exact Or.inl (boardItem_form e (he e hx) fun s hs => h ⟨s, hs⟩)

end Spec.Form

/-- A saved footprint has the documented form: the text stands for one tree, and
that tree has the words, the order and the nesting KiCad documents.  (Holes
without a width, and points that carry the word of another place, are excluded by
`Worded`.) -/
theorem C83_footprint_form [ZeroLaws F] (q : Str → Bool) (hq : QuotesWhenNeeded q) (level : Int) (m : Fp.Module F)
    (hn : Clean m.name) (hs : ∀ e ∈ m.elements, ∀ s ∈ strings e, Clean s)
    (h : ∀ e ∈ m.elements, Worded e) :
    ∃ e, TreeText (Fp.toText q level m) e ∧ moduleForm.Fits F [e] := by
  refine ⟨m.ser, (parseSexp_iff _ _).1 ?_, module_form m h⟩
  have := Sexp.Text.parse_toText_blank q level m.ser (Fp.Module.ok_clean q hq m hn hs
    fun e he p hp d hd => by have := h e he; rw [hp] at this; exact (this.2.2.2.2 d hd).1) [] Sexp.Text.blank_nil
  rwa [List.append_nil] at this

/-- A saved board has the documented form. -/
theorem C83_board_form [ZeroLaws F] (q : Str → Bool) (hq : QuotesWhenNeeded q) (level : Int)
    (l : Lay.Layout F) (hc : CleanLayout l) (hv : inI64 l.version) (hg : GoodGeneral l.general)
    (hl : ∀ x ∈ l.layers, inI64 x.num) (he : ∀ e ∈ l.elements, WordedBoard e) :
    ∃ e, TreeText (Lay.toText q level l) e ∧ boardForm.Fits F [e] := by
  refine ⟨l.ser, (parseSexp_iff _ _).1 ?_, board_form l hv hg hl he⟩
  refine Sexp.Text.parse_toText_blank q level l.ser (Lay.Layout.ok_ser hq l hc ?_) (str! "\n")
    (by unfold Blank; decide)
  rintro e hx m rfl e' he' p rfl d hd
  exact ((he _ hx _ he').2.2.2.2 d hd).1

/-- A saved library table has the documented form. -/
theorem C83_table_form (q : Str → Bool) (hq : QuotesWhenNeeded q) (level : Int) (t : Tbl.FpLibTable)
    (h : ∀ l ∈ t.libs, CleanLib l) :
    ∃ e, TreeText (Tbl.toText q level t) e ∧ tableForm.Fits F [e] := by
  refine ⟨t.ser, (parseSexp_iff _ _).1 ?_, fit_lst (fit_last (fit_map fun l _ => fit_lst
    (fit_cons (fit_pair (fit_name _)) (fit_cons (fit_pair (fit_name _)) (fit_cons (fit_pair (fit_name _))
    (fit_cons (fit_pair (fit_name _)) (fit_cons (fit_pair (fit_name _)) fit_nil)))))))⟩
  have := Sexp.Text.parse_toText_blank q level t.ser (okTree_node (by decide) (okTrees_iff.2 fun x hx => by
    obtain ⟨l, hl, rfl⟩ := List.mem_map.1 hx
    exact Tbl.Lib.ok_ser hq l (h l hl))) [] Sexp.Text.blank_nil
  rwa [List.append_nil] at this

theorem Spec.Form.points_inv {n a b : Str} {ps : List Form} {p1 p2 : Fp.Xy F} {rest : List Sexp}
    (h : (lst n (pointForm a :: pointForm b :: ps)).Fits F [node n (p1.ser :: p2.ser :: rest)]) :
    p1.t.show = a ∧ p2.t.show = b := by
  obtain ⟨r, hr, l1, l2, rfl, ⟨r1, rfl, -⟩, l3, l4, rfl, ⟨r2, rfl, -⟩, -⟩ := h
  simp only [node, Fp.Xy.ser, List.cons.injEq, Sexp.list.injEq, Sexp.str.injEq, List.cons_append,
    List.nil_append, and_true, true_and] at hr
  exact ⟨hr.1.1, hr.2.1.1⟩

theorem Spec.Form.name_inv {n m : Str} {f : Form} {r : List Sexp}
    (h : (list n f).Fits F [node m r]) : m = n := by
  obtain ⟨r', hr, -⟩ := h
  simp only [node, List.cons.injEq, Sexp.list.injEq, Sexp.str.injEq, and_true] at hr
  exact hr.1

theorem Fp.XyType.show_inj {s t : Fp.XyType} (h : s.show = t.show) : s = t := by
  cases s <;> cases t <;> first | rfl | (exact absurd h (by decide))

/-- A board line is written in the documented form exactly if its points carry the
words `start` and `end`; the same for arcs. -/
theorem C83_line_form_iff (l : Lay.GrLine F) (a : Lay.GrArc F) :
    (boardItemForm.Fits F [(Lay.Elem.grLine l).ser] ↔ l.start.t = .start ∧ l.end_.t = .end_) ∧
    (boardItemForm.Fits F [(Lay.Elem.grArc a).ser] ↔ a.start.t = .start ∧ a.end_.t = .end_) := by
  refine ⟨⟨?_, fun h => boardItem_form _ h (by simp)⟩, ⟨?_, fun h => boardItem_form _ h (by simp)⟩⟩
  · rintro (h | h | h | h | h | h | h | h | h | h | h)
    all_goals first
      | exact absurd (name_inv h) (by decide)
      | exact ⟨Fp.XyType.show_inj (points_inv h).1, Fp.XyType.show_inj (points_inv h).2⟩
  · rintro (h | h | h | h | h | h | h | h | h | h | h)
    all_goals first
      | exact absurd (name_inv h) (by decide)
      | exact ⟨Fp.XyType.show_inj (points_inv h).1, Fp.XyType.show_inj (points_inv h).2⟩

/-- A circle needs the words `center` and `end`; a track whose net number fits in
64 bits the words `start` and `end`. -/
theorem C83_circle_track_form_iff (c : Lay.GrCircle F) (s : Lay.Segment F) (hs : inI64 s.net) :
    (boardItemForm.Fits F [(Lay.Elem.grCircle c).ser] ↔ c.center.t = .center ∧ c.end_.t = .end_) ∧
    (boardItemForm.Fits F [(Lay.Elem.segment s).ser] ↔ s.start.t = .start ∧ s.end_.t = .end_) := by
  refine ⟨⟨?_, fun h => boardItem_form _ h (by simp)⟩,
    ⟨?_, fun h => boardItem_form _ ⟨h.1, h.2, hs⟩ (by simp)⟩⟩
  · rintro (h | h | h | h | h | h | h | h | h | h | h)
    all_goals first
      | exact absurd (name_inv h) (by decide)
      | exact ⟨Fp.XyType.show_inj (points_inv h).1, Fp.XyType.show_inj (points_inv h).2⟩
  · rintro (h | h | h | h | h | h | h | h | h | h | h)
    all_goals first
      | exact absurd (name_inv h) (by decide)
      | exact ⟨Fp.XyType.show_inj (points_inv h).1, Fp.XyType.show_inj (points_inv h).2⟩

/-- Hence board lines, arcs, circles and tracks made from their defaults are never
written in the documented form, whatever their coordinates. -/
theorem C83_defaults_not (x1 y1 x2 y2 a width : F) (l : Fp.Layer) (net : Int) (hn : inI64 net) :
    ¬ boardItemForm.Fits F [(LayPart.line x1 y1 x2 y2 l width).make.ser] ∧
    ¬ boardItemForm.Fits F [(LayPart.arc x1 y1 x2 y2 a l width).make.ser] ∧
    ¬ boardItemForm.Fits F [(LayPart.circle x1 y1 x2 y2 l width).make.ser] ∧
    ¬ boardItemForm.Fits F [(LayPart.track x1 y1 x2 y2 width l net).make.ser] := by
  refine ⟨fun h => ?_, fun h => ?_, fun h => ?_, fun h => ?_⟩
  · exact absurd ((C83_line_form_iff _ Lay.GrArc.dflt).1.1 h).1 (by simp [Lay.GrLine.dflt, Fp.Xy.dflt])
  · exact absurd ((C83_line_form_iff Lay.GrLine.dflt _).2.1 h).1 (by simp [Lay.GrArc.dflt, Fp.Xy.dflt])
  · exact absurd ((C83_circle_track_form_iff _ Lay.Segment.dflt (by decide : inI64 0)).1.1 h).1
      (by simp [Lay.GrCircle.dflt, Fp.Xy.dflt])
  · exact absurd ((C83_circle_track_form_iff Lay.GrCircle.dflt _ hn).2.1 h).1
      (by simp [Lay.Segment.dflt, Fp.Xy.dflt])

theorem Spec.FpPart.make_worded [ZeroLaws F] (p : FpPart F) (h : p.Fits) : Worded p.make := by
  have hg := (p.make_good h).1
  cases p with
  | pad name t shape x y rot w hh layers net drill =>
    refine ⟨hg.1, fun d hd => ?_, hg.2.2.2.1, hg.2.2.2.2.1, fun d hd =>
      ⟨(hg.2.2.2.2.2 d hd).1, (hg.2.2.2.2.2 d hd).2.1⟩⟩
    have := hg.2.1.symm.trans hd
    cases this
  | poly points layer width =>
    intro x hx
    obtain ⟨q, -, rfl⟩ := List.mem_map.1 hx
    rfl
  | text => trivial
  | _ => exact ⟨rfl, rfl⟩

/-- A footprint built with the constructors is saved in the documented form. -/
theorem C83_built_footprint_form [ZeroLaws F] (q : Str → Bool) (hq : QuotesWhenNeeded q) (level : Int)
    (name : Str) (hn : Clean name) (parts : List (FpPart F)) (h : ∀ p ∈ parts, p.Fits) :
    ∃ e, TreeText (Fp.toText q level (buildModule name parts)) e ∧ moduleForm.Fits F [e] := by
  rw [buildModule_eq]
  refine C83_footprint_form q hq level _ hn (fun e he => ?_) fun e he => ?_
  · obtain ⟨p, hp, rfl⟩ := List.mem_map.1 he
    exact (p.make_good (h p hp)).2
  · obtain ⟨p, hp, rfl⟩ := List.mem_map.1 he
    exact p.make_worded (h p hp)

example : ∃ e, TreeText (Fp.toText Fm.stdQuote 0 (buildModule (str! "R_0805") sampleParts)) e ∧
    moduleForm.Fits Nm [e] :=
  C83_built_footprint_form _ Spec.stdQuote_quotes 0 _ (by decide) _ Spec.sampleParts_fits

example : ∃ e, TreeText (Lay.toText Fm.stdQuote 0 Spec.sampleLayout) e ∧ boardForm.Fits Nm [e] := by
  refine C83_board_form _ Spec.stdQuote_quotes 0 _ Spec.sampleLayout_clean Spec.sampleLayout_savable.1
    Spec.sampleLayout_savable.2.1 (fun x hx => (Spec.sampleLayout_savable.2.2.1 x hx).1) ?_
  have hs := Spec.sampleLayout_savable.2.2.2.2
  simp only [Spec.sampleLayout, List.forall_mem_cons] at hs ⊢
  obtain ⟨h1, h2, -, -, h5, h6, h7, h8, -⟩ := hs
  refine ⟨h1, h2, trivial, ?_, ⟨rfl, rfl, h5.2⟩, h6.2, ⟨h7.1, h7.2.2.2.1, by decide, h7.2.2.2.2⟩, h8, by simp⟩
  intro e he
  simp only [List.mem_cons, List.not_mem_nil, or_false] at he
  rcases he with rfl | rfl <;> trivial

end Verif

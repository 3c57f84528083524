import Verif.Lemmas.LayCodec
/-!
# Layouts: what was read
-/

namespace Verif.Lay
open Verif Flt Sx Spec

set_option linter.unusedSectionVars false
set_option linter.unusedSimpArgs false

variable {F : Type} [Flt F] [TextLaws F] [ZeroLaws F]

theorem eat_ok {α : Type} {dec : Sexp → Res α} {i r : List Sexp} {a : α}
    (h : eat dec i = .ok (a, r)) : ∃ x, i = x :: r ∧ dec x = .ok a := by
  cases i with
  | nil => simp [eat] at h
  | cons x i =>
    simp only [eat_cons, Res.bind_eq_ok, Res.ok.injEq, Prod.mk.injEq] at h
    obtain ⟨f, h2, rfl, rfl⟩ := h
    exact ⟨x, rfl, h2⟩

theorem inList_ok {α : Type} {n : Str} {dec : Sexp → Res α} {x : Sexp} {a : α}
    (h : inList n dec x = .ok a) : ∃ v, x = pair n v ∧ dec v = .ok a := by
  simp only [inList, Res.bind_eq_ok] at h
  obtain ⟨v, h1, h2⟩ := h
  refine ⟨v, ?_, h2⟩
  unfold namedValue at h1
  split at h1
  · split at h1
    · simp only [Res.ok.injEq] at h1
      subst h1; rename_i h; subst h; rfl
    · cases h1
  · cases h1

theorem eat_inList {α : Type} {n : Str} {dec : Sexp → Res α} {i r : List Sexp} {a : α}
    (h : eat (inList n dec) i = .ok (a, r)) : ∃ v, dec v = .ok a := by
  obtain ⟨x, _, hx⟩ := eat_ok h
  obtain ⟨v, _, hv⟩ := inList_ok hx
  exact ⟨v, hv⟩

theorem eat_int {n : Str} {i r : List Sexp} {a : Int}
    (h : eat (inList n int) i = .ok (a, r)) : inI64 a := by
  obtain ⟨v, hv⟩ := eat_inList h
  exact Fp.int_range hv

theorem General.good_of_de {s : Sexp} {g : General F} (h : General.de s = .ok g) : GoodGeneral g := by
  simp only [General.de, Res.bind_eq_ok] at h
  obtain ⟨i, _, ⟨a1, i1⟩, h1, ⟨a2, i2⟩, h2, ⟨a3, i3⟩, h3, ⟨a4, i4⟩, h4, ⟨a5, i5⟩, h5, ⟨a6, i6⟩, h6,
    ⟨a7, i7⟩, h7, ⟨a8, i8⟩, h8, ⟨a9, i9⟩, h9, h⟩ := h
  rw [← Fp.close_ok h]
  exact ⟨eat_int h1, eat_int h2, eat_int h5, eat_int h6, eat_int h7, eat_int h8, eat_int h9⟩

theorem Layer.good_of_de {s : Sexp} {l : Layer} (h : Layer.de s = .ok l) :
    inI64 l.num ∧ GoodLayer l.layer := by
  simp only [Layer.de, Res.bind_eq_ok] at h
  obtain ⟨i, _, ⟨a1, i1⟩, h1, ⟨a2, i2⟩, h2, a3, h3, ⟨a4, i4⟩, h4, ⟨a5, i5⟩, h5, h⟩ := h
  rw [← Fp.close_ok h]
  obtain ⟨x, _, hx⟩ := eat_ok h1
  exact ⟨Fp.int_range hx, Fp.Layer.good_of_read h3⟩

theorem LayerVec.good_of_de {s : Sexp} {l : List Layer} (h : LayerVec.de s = .ok l) :
    ∀ x ∈ l, inI64 x.num ∧ GoodLayer x.layer := by
  simp only [LayerVec.de, Res.bind_eq_ok] at h
  obtain ⟨i, _, h⟩ := h
  intro x hx
  obtain ⟨y, _, hy⟩ := Fp.vec_mem h x hx
  exact Layer.good_of_de hy

theorem SetupElement.name_of_de {s : Sexp} {e : SetupElement} (h : SetupElement.de s = .ok e) :
    listName s = .ok e.name := by
  simp only [SetupElement.de, Res.bind_eq_ok] at h
  obtain ⟨i, h0, ⟨a1, i1⟩, h1, ⟨a2, i2⟩, h2, ⟨a3, i3⟩, h3, h⟩ := h
  rw [← Fp.close_ok h]
  obtain ⟨x, rfl, hx⟩ := eat_ok h1
  cases s with
  | list l =>
    simp only [list, Res.ok.injEq] at h0
    subst h0
    cases x with
    | str s => simp only [string, Res.ok.injEq] at hx; subst hx; rfl
    | list l => simp [string] at hx
    | empty => simp [string] at hx
  | str s => simp [list] at h0
  | empty => simp [list] at h0

theorem Setup.fill_good (r : List Sexp) : ∀ {st st' : Setup}, Setup.fill st r = .ok st' →
    (∀ e ∈ st.elements, e.name ≠ str! "pcbplotparams") →
    ∀ e ∈ st'.elements, e.name ≠ str! "pcbplotparams" := by
  induction r with
  | nil => intro st st' h hs; simp only [Setup.fill, Res.ok.injEq] at h; rw [← h]; exact hs
  | cons v r ih =>
    intro st st' h hs
    simp only [Setup.fill, Res.bind_eq_ok] at h
    obtain ⟨n, hn, h⟩ := h
    split at h
    · simp only [Res.bind_eq_ok] at h
      obtain ⟨i2, _, ps, _, h⟩ := h
      exact ih h hs
    · rename_i hne
      simp only [Res.bind_eq_ok] at h
      obtain ⟨e, he, h⟩ := h
      refine ih h ?_
      intro x hx
      rcases List.mem_append.1 hx with hx | hx
      · exact hs x hx
      · simp only [List.mem_singleton] at hx
        subst hx
        have := SetupElement.name_of_de he
        rw [hn] at this
        simp only [Res.ok.injEq] at this
        rw [← this]; exact hne

theorem Setup.good_of_de {s : Sexp} {st : Setup} (h : Setup.de s = .ok st) :
    ∀ e ∈ st.elements, e.name ≠ str! "pcbplotparams" := by
  simp only [Setup.de, Res.bind_eq_ok] at h
  obtain ⟨i, _, h⟩ := h
  exact Setup.fill_good i h (by simp)

theorem GrText.good_of_de {s : Sexp} {t : GrText F} (h : GrText.de s = .ok t) :
    GoodLayer t.layer ∧ t.effects.font.size.t = .xy := by
  simp only [GrText.de, Res.bind_eq_ok] at h
  obtain ⟨i, _, ⟨a1, i1⟩, h1, ⟨a2, i2⟩, h2, ⟨a3, i3⟩, h3, ⟨a4, i4⟩, h4, ⟨a5, i5⟩, h5, h⟩ := h
  rw [← Fp.close_ok h]
  obtain ⟨x, _, hx⟩ := eat_ok h3
  obtain ⟨y, _, hy⟩ := eat_ok h4
  exact ⟨Fp.Layer.good_of_de hx, Fp.Effects.xy_of_de hy⟩

theorem GrLine.good_of_de {s : Sexp} {t : GrLine F} (h : GrLine.de s = .ok t) : GoodLayer t.layer := by
  simp only [GrLine.de, Res.bind_eq_ok] at h
  obtain ⟨i, _, ⟨a1, i1⟩, h1, ⟨a2, i2⟩, h2, ⟨a3, i3⟩, h3, ⟨a4, i4⟩, h4, ⟨a5, i5⟩, h5, ⟨a6, i6⟩, h6, h⟩ := h
  rw [← Fp.close_ok h]
  obtain ⟨x, _, hx⟩ := eat_ok h4
  exact Fp.Layer.good_of_de hx

theorem GrArc.good_of_de {s : Sexp} {t : GrArc F} (h : GrArc.de s = .ok t) : GoodLayer t.layer := by
  simp only [GrArc.de, Res.bind_eq_ok] at h
  obtain ⟨i, _, ⟨a1, i1⟩, h1, ⟨a2, i2⟩, h2, ⟨a3, i3⟩, h3, ⟨a4, i4⟩, h4, ⟨a5, i5⟩, h5, ⟨a6, i6⟩, h6, h⟩ := h
  rw [← Fp.close_ok h]
  obtain ⟨x, _, hx⟩ := eat_ok h4
  exact Fp.Layer.good_of_de hx

theorem GrCircle.good_of_de {s : Sexp} {t : GrCircle F} (h : GrCircle.de s = .ok t) :
    GoodLayer t.layer := by
  simp only [GrCircle.de, Res.bind_eq_ok] at h
  obtain ⟨i, _, ⟨a1, i1⟩, h1, ⟨a2, i2⟩, h2, ⟨a3, i3⟩, h3, ⟨a4, i4⟩, h4, ⟨a5, i5⟩, h5, h⟩ := h
  rw [← Fp.close_ok h]
  obtain ⟨x, _, hx⟩ := eat_ok h3
  exact Fp.Layer.good_of_de hx

theorem Dimension.good_of_de {s : Sexp} {t : Dimension F} (h : Dimension.de s = .ok t) :
    GoodLayer t.layer ∧ GoodLayer t.text.layer ∧ t.text.effects.font.size.t = .xy := by
  simp only [Dimension.de, Res.bind_eq_ok] at h
  obtain ⟨i, _, ⟨a1, i1⟩, h1, ⟨a2, i2⟩, h2, ⟨a3, i3⟩, h3, ⟨a4, i4⟩, h4, ⟨a5, i5⟩, h5, ⟨a6, i6⟩, h6,
    ⟨a7, i7⟩, h7, ⟨a8, i8⟩, h8, ⟨a9, i9⟩, h9, ⟨b1, j1⟩, g1, ⟨b2, j2⟩, g2, ⟨b3, j3⟩, g3, h⟩ := h
  rw [← Fp.close_ok h]
  obtain ⟨x, _, hx⟩ := eat_ok h3
  obtain ⟨y, _, hy⟩ := eat_ok h5
  exact ⟨Fp.Layer.good_of_de hx, GrText.good_of_de hy⟩

theorem Segment.good_of_de {s : Sexp} {t : Segment F} (h : Segment.de s = .ok t) :
    GoodLayer t.layer ∧ inI64 t.net := by
  simp only [Segment.de, Res.bind_eq_ok] at h
  obtain ⟨i, _, ⟨a1, i1⟩, h1, ⟨a2, i2⟩, h2, ⟨a3, i3⟩, h3, ⟨a4, i4⟩, h4, ⟨a5, i5⟩, h5, ⟨a6, i6⟩, h6,
    ⟨a7, i7⟩, h7, h⟩ := h
  rw [← Fp.close_ok h]
  obtain ⟨x, _, hx⟩ := eat_ok h4
  exact ⟨Fp.Layer.good_of_de hx, eat_int h5⟩

theorem Via.good_of_de {s : Sexp} {t : Via F} (h : Via.de s = .ok t) :
    (∀ l ∈ t.layers, GoodLayer l) ∧ inI64 t.net := by
  simp only [Via.de, Res.bind_eq_ok] at h
  obtain ⟨i, _, ⟨a1, i1⟩, h1, ⟨a2, i2⟩, h2, ⟨a3, i3⟩, h3, ⟨a4, i4⟩, h4, ⟨a5, i5⟩, h5, ⟨a6, i6⟩, h6,
    ⟨a7, i7⟩, h7, h⟩ := h
  rw [← Fp.close_ok h]
  obtain ⟨x, _, hx⟩ := eat_ok h6
  refine ⟨Fp.Layers.good_of_de hx, ?_⟩
  cases a7 with
  | none => show inI64 0; decide
  | some n =>
    obtain ⟨y, hy⟩ := Fp.maybe_some h7
    obtain ⟨v, _, hv⟩ := inList_ok hy
    exact Fp.int_range hv

theorem Fill.good_of_de {s : Sexp} {t : Fill F} (h : Fill.de s = .ok t) : inI64 t.arcSegments := by
  simp only [Fill.de, Res.bind_eq_ok] at h
  obtain ⟨i, _, ⟨a1, i1⟩, h1, ⟨a2, i2⟩, h2, ⟨a3, i3⟩, h3, ⟨a4, i4⟩, h4, ⟨a5, i5⟩, h5, ⟨a6, i6⟩, h6,
    ⟨a7, i7⟩, h7, h⟩ := h
  rw [← Fp.close_ok h]
  exact eat_int h3

theorem Zone.fillRest_good (r : List Sexp) : ∀ z : Zone F, (∀ s ∈ z.other, notOutline F s) →
    (Zone.fillRest z r).net = z.net ∧ (Zone.fillRest z r).layer = z.layer ∧
    (Zone.fillRest z r).fill = z.fill ∧ (Zone.fillRest z r).priority = z.priority ∧
    ∀ s ∈ (Zone.fillRest z r).other, notOutline F s := by
  induction r with
  | nil => intro z h; exact ⟨rfl, rfl, rfl, rfl, h⟩
  | cons x r ih =>
    intro z h
    rw [Zone.fillRest]
    split
    · exact ih _ h
    · rename_i h1
      split
      · exact ih _ h
      · rename_i h2
        split
        · exact ih _ h
        · rename_i h3
          refine ih _ fun s hs => ?_
          rcases List.mem_append.1 hs with hs | hs
          · exact h s hs
          · simp only [List.mem_singleton] at hs
            subst hs
            exact ⟨h1, h2, h3⟩

theorem Zone.good_of_de {s : Sexp} {t : Zone F} (h : Zone.de s = .ok t) :
    inI64 t.net ∧ GoodLayer t.layer ∧ inI64 t.fill.arcSegments ∧ ∀ s ∈ t.other, notOutline F s := by
  simp only [Zone.de, Res.bind_eq_ok] at h
  obtain ⟨i, _, ⟨a1, i1⟩, h1, ⟨a2, i2⟩, h2, ⟨a3, i3⟩, h3, ⟨a4, i4⟩, h4, ⟨a5, i5⟩, h5, ⟨a6, i6⟩, h6,
    ⟨a7, i7⟩, h7, ⟨a8, i8⟩, h8, ⟨a9, i9⟩, h9, ⟨b1, j1⟩, g1, h⟩ := h
  simp only [Res.ok.injEq] at h
  have hz := Zone.fillRest_good j1 ⟨a1, a2, a3, a4, a5, asU64 (a6.getD 0), a7, a8, a9, b1, [], [],
    none, []⟩ (by simp)
  rw [h] at hz
  obtain ⟨e1, e2, e3, _, e5⟩ := hz
  obtain ⟨x, _, hx⟩ := eat_ok h3
  obtain ⟨y, _, hy⟩ := eat_ok g1
  refine ⟨?_, ?_, ?_, e5⟩
  · rw [e1]; exact eat_int h1
  · rw [e2]; exact Fp.Layer.good_of_de hx
  · rw [e3]; exact Fill.good_of_de hy

/-! ## Sections -/

/-- The sections that are not kept as elements. -/
def headerSections : List Str :=
  [str! "version", str! "host", str! "general", str! "page", str! "layers", str! "setup"]

/-- The reader of an element section. -/
def Elem.read (e : Sexp) : Res (Elem F) := do
  let n ← listName e
  if n = str! "module" then do let v ← Fp.Module.de e; .ok (.module_ v)
  else if n = str! "net" then do let v ← Fp.Net.de e; .ok (.net v)
  else if n = str! "net_class" then do let v ← NetClass.de e; .ok (.netClass v)
  else if n = str! "gr_text" then do let v ← GrText.de e; .ok (.grText v)
  else if n = str! "gr_line" then do let v ← GrLine.de e; .ok (.grLine v)
  else if n = str! "gr_arc" then do let v ← GrArc.de e; .ok (.grArc v)
  else if n = str! "gr_circle" then do let v ← GrCircle.de e; .ok (.grCircle v)
  else if n = str! "dimension" then do let v ← Dimension.de e; .ok (.dimension v)
  else if n = str! "zone" then do let v ← Zone.de e; .ok (.zone v)
  else if n = str! "segment" then do let v ← Segment.de e; .ok (.segment v)
  else if n = str! "via" then do let v ← Via.de e; .ok (.via v)
  else .ok (.other e)

theorem bind_ite {α β : Type} {c : Prop} [Decidable c] (a b : Res α) (f : α → Res β) :
    ((if c then a else b) >>= f) = if c then a >>= f else b >>= f := by
  split <;> rfl

theorem Layout.step_elem (l : Layout F) {e : Sexp} {n : Str} (hl : listName e = .ok n)
    (hn : n ∉ headerSections) :
    l.step e = Elem.read e >>= fun x => .ok { l with elements := l.elements ++ [x] } := by
  simp only [headerSections, List.mem_cons, List.not_mem_nil, or_false, not_or] at hn
  obtain ⟨h1, h2, h3, h4, h5, h6⟩ := hn
  simp only [Layout.step, Elem.read, hl, Res.bind_ok, h1, h2, h3, h4, h5, h6, if_false, bind_ite,
    Res.bind_assoc]

theorem Layout.step_header (l l' : Layout F) {e : Sexp} {n : Str} (hl : listName e = .ok n)
    (hn : n ∈ headerSections) (h : l.step e = .ok l') : l'.elements = l.elements := by
  simp only [headerSections, List.mem_cons, List.not_mem_nil, or_false] at hn
  simp only [Layout.step, hl, Res.bind_ok] at h
  rcases hn with rfl | rfl | rfl | rfl | rfl | rfl <;> simp at h <;>
    simp only [Res.bind_eq_ok, Res.ok.injEq] at h <;> obtain ⟨v, _, rfl⟩ := h <;> rfl

/-- Is the section kept as an element? -/
def isElem (e : Sexp) : Bool :=
  match listName e with
  | .ok n => !decide (n ∈ headerSections)
  | _ => false

theorem Layout.fill_read (r : List Sexp) : ∀ {l l' : Layout F}, Layout.fill l r = .ok l' →
    ∃ es, vec (Elem.read (F := F)) (r.filter isElem) = .ok es ∧ l'.elements = l.elements ++ es := by
  induction r with
  | nil =>
    intro l l' h
    simp only [Layout.fill, Res.ok.injEq] at h
    exact ⟨[], rfl, by simp [h]⟩
  | cons e r ih =>
    intro l l' h
    simp only [Layout.fill, Res.bind_eq_ok] at h
    obtain ⟨l1, h1, h⟩ := h
    obtain ⟨es, hes, he⟩ := ih h
    have hn : ∃ n, listName e = .ok n := by
      simp only [Layout.step, Res.bind_eq_ok] at h1
      exact ⟨_, h1.choose_spec.1⟩
    obtain ⟨n, hn⟩ := hn
    by_cases hh : n ∈ headerSections
    · have : isElem e = false := by simp [isElem, hn, hh]
      rw [List.filter_cons_of_neg (by simp [this])]
      exact ⟨es, hes, by rw [he, Layout.step_header l l1 hn hh h1]⟩
    · have : isElem e = true := by simp [isElem, hn, hh]
      rw [List.filter_cons_of_pos this]
      rw [Layout.step_elem l hn hh] at h1
      simp only [Res.bind_eq_ok, Res.ok.injEq] at h1
      obtain ⟨x, hx, rfl⟩ := h1
      exact ⟨x :: es, by simp [vec, hx, hes], by simp [he]⟩

/-- What the header of a layout looks like after reading. -/
def GoodHeader (l : Layout F) : Prop :=
  inI64 l.version ∧ GoodGeneral l.general ∧ (∀ x ∈ l.layers, inI64 x.num ∧ GoodLayer x.layer) ∧
  (∀ s ∈ l.setup.elements, s.name ≠ str! "pcbplotparams")

theorem single_ok {α : Type} {n : Str} {dec : Sexp → Res α} {s : Sexp} {a : α}
    (h : single n dec s = .ok a) : ∃ x, dec x = .ok a := by
  simp only [single, Res.bind_eq_ok] at h
  obtain ⟨i, _, ⟨b, j⟩, h2, h3⟩ := h
  rw [← Fp.close_ok h3]
  obtain ⟨x, _, hx⟩ := eat_ok h2
  exact ⟨x, hx⟩

theorem Layout.step_good (l l' : Layout F) {e : Sexp} (h : l.step e = .ok l') (hl : GoodHeader l) :
    GoodHeader l' := by
  obtain ⟨h1, h2, h3, h4⟩ := hl
  have h0 := h
  simp only [Layout.step, Res.bind_eq_ok] at h0
  obtain ⟨n, hn, h0⟩ := h0
  by_cases hh : n ∈ headerSections
  · clear h0
    simp only [headerSections, List.mem_cons, List.not_mem_nil, or_false] at hh
    simp only [Layout.step, hn, Res.bind_ok] at h
    rcases hh with rfl | rfl | rfl | rfl | rfl | rfl <;> simp at h <;>
      simp only [Res.bind_eq_ok, Res.ok.injEq] at h <;> obtain ⟨v, hv, rfl⟩ := h
    · obtain ⟨x, hx⟩ := single_ok hv
      exact ⟨Fp.int_range hx, h2, h3, h4⟩
    · exact ⟨h1, h2, h3, h4⟩
    · exact ⟨h1, General.good_of_de hv, h3, h4⟩
    · exact ⟨h1, h2, h3, h4⟩
    · exact ⟨h1, h2, LayerVec.good_of_de hv, h4⟩
    · exact ⟨h1, h2, h3, Setup.good_of_de hv⟩
  · rw [Layout.step_elem l hn hh] at h
    simp only [Res.bind_eq_ok, Res.ok.injEq] at h
    obtain ⟨x, _, rfl⟩ := h
    exact ⟨h1, h2, h3, h4⟩

theorem Layout.fill_good (r : List Sexp) : ∀ {l l' : Layout F}, Layout.fill l r = .ok l' →
    GoodHeader l → GoodHeader l' := by
  induction r with
  | nil => intro l l' h hl; simp only [Layout.fill, Res.ok.injEq] at h; rw [← h]; exact hl
  | cons e r ih =>
    intro l l' h hl
    simp only [Layout.fill, Res.bind_eq_ok] at h
    obtain ⟨l1, h1, h⟩ := h
    exact ih h (Layout.step_good l l1 h1 hl)

theorem Layout.dflt_good : GoodHeader (Layout.dflt : Layout F) := by
  refine ⟨by show inI64 4; decide, ?_, by simp [Layout.dflt], by simp [Layout.dflt]⟩
  have : inI64 0 := by decide
  exact ⟨this, this, this, this, this, this, this⟩

theorem Layout.good_of_de {s : Sexp} {l : Layout F} (h : Layout.de s = .ok l) : GoodHeader l := by
  simp only [Layout.de, Res.bind_eq_ok] at h
  obtain ⟨i, _, h⟩ := h
  exact Layout.fill_good i h Layout.dflt_good

theorem Layout.elements_of_de {s : Sexp} {l : Layout F} (h : Layout.de s = .ok l) :
    ∃ r, s = node (str! "kicad_pcb") r ∧ vec (Elem.read (F := F)) (r.filter isElem) = .ok l.elements := by
  simp only [Layout.de, Res.bind_eq_ok] at h
  obtain ⟨i, hi, h⟩ := h
  refine ⟨i, ?_, ?_⟩
  · unfold iter at hi
    split at hi
    · split at hi
      · rename_i heq; subst heq; simp only [Res.ok.injEq] at hi; subst hi; rfl
      · cases hi
    · cases hi
  · obtain ⟨es, hes, he⟩ := Layout.fill_read i h
    rw [hes, he]; rfl

theorem ite_ok' {α : Type} {p : Prop} [Decidable p] {a b : Res α} {x : α}
    (h : (if p then a else b) = .ok x) : a = .ok x ∨ (¬ p ∧ b = .ok x) := by
  split at h
  · exact .inl h
  · exact .inr ⟨by assumption, h⟩

theorem listName_ok {s : Sexp} {n : Str} (h : listName s = .ok n) : ∃ r, s = .list (.str n :: r) := by
  unfold listName at h
  split at h
  · simp only [Res.ok.injEq] at h; subst h; exact ⟨_, rfl⟩
  · cases h

theorem isElem_ok {s : Sexp} (h : isElem s = true) : ∃ n, listName s = .ok n ∧ n ∉ headerSections := by
  unfold isElem at h
  split at h
  · rename_i n hn; exact ⟨n, hn, by simpa using h⟩
  · simp at h

theorem Elem.read_inv {s : Sexp} {e : Elem F} (h : Elem.read s = .ok e) (hs : isElem s = true) :
    (∃ v, Fp.Module.de s = .ok v ∧ e = .module_ v) ∨ (∃ v, Fp.Net.de s = .ok v ∧ e = .net v) ∨
    (∃ v, NetClass.de s = .ok v ∧ e = .netClass v) ∨ (∃ v, GrText.de s = .ok v ∧ e = .grText v) ∨
    (∃ v, GrLine.de s = .ok v ∧ e = .grLine v) ∨ (∃ v, GrArc.de s = .ok v ∧ e = .grArc v) ∨
    (∃ v, GrCircle.de s = .ok v ∧ e = .grCircle v) ∨ (∃ v, Dimension.de s = .ok v ∧ e = .dimension v) ∨
    (∃ v, Zone.de s = .ok v ∧ e = .zone v) ∨ (∃ v, Segment.de s = .ok v ∧ e = .segment v) ∨
    (∃ v, Via.de s = .ok v ∧ e = .via v) ∨ (UnknownSection s ∧ e = .other s) := by
  simp only [Elem.read, Res.bind_eq_ok] at h
  obtain ⟨n, hn, h⟩ := h
  obtain ⟨n', hn', hh⟩ := isElem_ok hs
  rw [hn] at hn'
  simp only [Res.ok.injEq] at hn'
  subst hn'
  iterate 11
    rcases ite_ok' h with h' | ⟨_, h'⟩
    · clear h
      simp only [Res.bind_eq_ok, Res.ok.injEq] at h'
      obtain ⟨v, hv, rfl⟩ := h'
      simp [hv]
    clear h
    have h := h'
    clear h'
  obtain ⟨r, rfl⟩ := listName_ok hn
  simp only [headerSections, List.mem_cons, List.not_mem_nil, or_false, not_or] at hh
  simp only [Res.ok.injEq] at h
  have hu : UnknownSection (.list (.str n :: r)) := by
    refine ⟨n, r, rfl, ?_⟩
    simp only [layoutSections, List.mem_cons, List.not_mem_nil, or_false, not_or]
    tauto
  simp [h, hu]

theorem Elem.good_of_read {s : Sexp} {e : Elem F} (h : Elem.read s = .ok e) (hs : isElem s = true)
    (hr : ResavableBoard e) : e.good := by
  rcases Elem.read_inv h hs with ⟨v, hv, rfl⟩ | ⟨v, hv, rfl⟩ | ⟨v, hv, rfl⟩ | ⟨v, hv, rfl⟩ |
    ⟨v, hv, rfl⟩ | ⟨v, hv, rfl⟩ | ⟨v, hv, rfl⟩ | ⟨v, hv, rfl⟩ | ⟨v, hv, rfl⟩ | ⟨v, hv, rfl⟩ |
    ⟨v, hv, rfl⟩ | ⟨hu, rfl⟩
  · exact Fp.Module.good_of_de hv hr
  · exact Fp.Net.range_of_de hv
  · trivial
  · exact ⟨(GrText.good_of_de hv).1, (GrText.good_of_de hv).2, hr⟩
  · exact GrLine.good_of_de hv
  · exact GrArc.good_of_de hv
  · exact GrCircle.good_of_de hv
  · obtain ⟨h1, h2, h3⟩ := Dimension.good_of_de hv
    exact ⟨h1, h2, h3, hr⟩
  · obtain ⟨h1, h2, h3, h4⟩ := Zone.good_of_de hv
    exact ⟨h1, h2, hr, h3, h4⟩
  · exact Segment.good_of_de hv
  · exact Via.good_of_de hv
  · exact hu

theorem Elem.shapes_of_read {s : Sexp} {m : Fp.Module F} (h : Elem.read s = .ok (.module_ m))
    (hs : isElem s = true) : Fp.ShapesRead m := by
  rcases Elem.read_inv h hs with ⟨v, hv, he⟩ | ⟨v, hv, he⟩ | ⟨v, hv, he⟩ | ⟨v, hv, he⟩ |
    ⟨v, hv, he⟩ | ⟨v, hv, he⟩ | ⟨v, hv, he⟩ | ⟨v, hv, he⟩ | ⟨v, hv, he⟩ | ⟨v, hv, he⟩ |
    ⟨v, hv, he⟩ | ⟨_, he⟩ <;> cases he
  exact Fp.Module.shapes_of_de hv

/-! ## What was lost -/

theorem GrText.font_of_roundtrip (t : GrText F) (h : GrText.de t.ser = .ok t) :
    ResavableFont t.effects.font := by
  have hl := (GrText.good_of_de h).1
  simp only [GrText.de, GrText.ser, iter_node, Res.bind_ok, List.cons_append, List.nil_append,
    eat_cons, string_str, Fp.At.de_ser, Fp.Layer.de_ser _ hl, Res.bind_assoc] at h
  rw [Res.bind_eq_ok] at h
  obtain ⟨e, he, h⟩ := h
  simp only [Res.bind_ok, Res.bind_eq_ok] at h
  obtain ⟨⟨ts, i⟩, _, h⟩ := h
  have := congrArg GrText.effects (Fp.close_ok h)
  simp only at this
  subst this
  simp only [Fp.Effects.de, Fp.Effects.ser, iter_node, Res.bind_ok, eat_cons, Res.bind_assoc] at he
  rw [Res.bind_eq_ok] at he
  obtain ⟨f, hf, he⟩ := he
  simp only [Res.bind_ok, Res.bind_eq_ok] at he
  obtain ⟨⟨j, i⟩, _, he⟩ := he
  have := congrArg Fp.Effects.font (Fp.close_ok he)
  simp only at this
  subst this
  exact Fp.Font.size_of_roundtrip _ hf

theorem int_big (n : Nat) (h : ¬ n ≤ maxI64) : int (.str (showNat n)) = .err .sexp := by
  have hr := readBase_showBase (b := 10) (by omega) (by omega) n
  have hd := showBase_digits (b := 10) (by omega) n
  have : i64FromStr (showNat n) = none := by
    unfold i64FromStr readI64 showNat
    split
    · rename_i cs heq
      obtain ⟨d, hd, hc⟩ := hd '-' (by simp [heq])
      exact absurd hc.symm (digitChar_ne_minus d (by omega)).1
    · rename_i cs heq
      obtain ⟨d, hd, hc⟩ := hd '+' (by simp [heq])
      exact absurd hc.symm (digitChar_ne_minus d (by omega)).2
    · rw [hr]
      have : ¬ inI64 (n : Int) := by unfold inI64 maxI64 at *; omega
      simpa using this
  simp [int, this]

theorem Zone.priority_of_roundtrip (z : Zone F) (h : Zone.de z.ser = .ok z) : z.priority ≤ maxI64 := by
  by_contra hp
  obtain ⟨h1, h2, h3, h4⟩ := Zone.good_of_de h
  have h0 : z.priority > 0 := by omega
  have hp' : inList (str! "priority") int (pair (str! "priority") (.str (showNat z.priority))) =
      .err .sexp := by
    simp [int_big _ hp]
  have hc : (ConnectPads.de (pair (str! "priority") (.str (showNat z.priority))) :
      Res (ConnectPads F)) = .err .sexp := by
    simp [ConnectPads.de, pair_eq, iter_node_ne]
  simp only [Zone.de, Zone.ser, iter_node, Res.bind_ok, List.cons_append, List.nil_append,
    eat_cons, inList_pair, int_ofI _ h1, string_str, Fp.Layer.de_ser _ h2, Hatch.de_ser,
    List.append_assoc, h0, if_true, maybe_err hp', hc, Res.bind_err] at h
  cases h

theorem Elem.of_roundtrip {s : Sexp} (e : Elem F) (hr : Elem.read s = .ok e) (hs : isElem s = true)
    (h : Elem.read e.ser = .ok e) : ResavableBoard e := by
  cases e with
  | module_ m =>
    have hl : listName m.ser = .ok (str! "module") := rfl
    rcases Elem.read_inv h (by simp [isElem, Elem.ser, hl]; decide) with ⟨v, hv, he⟩ | ⟨v, hv, he⟩ | ⟨v, hv, he⟩ | ⟨v, hv, he⟩ |
      ⟨v, hv, he⟩ | ⟨v, hv, he⟩ | ⟨v, hv, he⟩ | ⟨v, hv, he⟩ | ⟨v, hv, he⟩ | ⟨v, hv, he⟩ |
      ⟨v, hv, he⟩ | ⟨_, he⟩ <;> cases he
    exact Fp.Module.of_roundtrip m hv
  | grText m =>
    have hl : listName m.ser = .ok (str! "gr_text") := rfl
    rcases Elem.read_inv h (by simp [isElem, Elem.ser, hl]; decide) with ⟨v, hv, he⟩ | ⟨v, hv, he⟩ | ⟨v, hv, he⟩ | ⟨v, hv, he⟩ |
      ⟨v, hv, he⟩ | ⟨v, hv, he⟩ | ⟨v, hv, he⟩ | ⟨v, hv, he⟩ | ⟨v, hv, he⟩ | ⟨v, hv, he⟩ |
      ⟨v, hv, he⟩ | ⟨_, he⟩ <;> cases he
    exact GrText.font_of_roundtrip m hv
  | dimension m =>
    have hl : listName m.ser = .ok (str! "dimension") := rfl
    rcases Elem.read_inv h (by simp [isElem, Elem.ser, hl]; decide) with ⟨v, hv, he⟩ | ⟨v, hv, he⟩ | ⟨v, hv, he⟩ | ⟨v, hv, he⟩ |
      ⟨v, hv, he⟩ | ⟨v, hv, he⟩ | ⟨v, hv, he⟩ | ⟨v, hv, he⟩ | ⟨v, hv, he⟩ | ⟨v, hv, he⟩ |
      ⟨v, hv, he⟩ | ⟨_, he⟩ <;> cases he
    have hg := (Dimension.good_of_de hv).1
    have hn : inList (str! "tstamp") string m.text.ser = .err .sexp := inList_ne (by decide)
    have : GrText.de m.text.ser = .ok m.text := by
      simp only [Elem.ser, Dimension.de, Dimension.ser, iter_node, Res.bind_ok, List.cons_append,
        List.nil_append, eat_cons, string_str, inList_pair, flt_ofF, Fp.Layer.de_ser _ hg] at hv
      cases hc : m.tstamp <;>
        simp only [hc, Fp.optPair, List.nil_append, List.cons_append, maybe_err hn,
          maybe_ok (inList_str _ _), Res.bind_ok, eat_cons, Res.bind_assoc] at hv <;>
        rw [Res.bind_eq_ok] at hv <;> obtain ⟨t, ht, hv⟩ := hv <;>
        simp only [Res.bind_ok, inList_pair, Fp.Pts.de_ser, close_nil, Res.ok.injEq] at hv <;>
        rw [ht, ← congrArg Dimension.text hv]
    exact GrText.font_of_roundtrip m.text this
  | zone m =>
    have hl : listName m.ser = .ok (str! "zone") := rfl
    rcases Elem.read_inv h (by simp [isElem, Elem.ser, hl]; decide) with ⟨v, hv, he⟩ | ⟨v, hv, he⟩ | ⟨v, hv, he⟩ | ⟨v, hv, he⟩ |
      ⟨v, hv, he⟩ | ⟨v, hv, he⟩ | ⟨v, hv, he⟩ | ⟨v, hv, he⟩ | ⟨v, hv, he⟩ | ⟨v, hv, he⟩ |
      ⟨v, hv, he⟩ | ⟨_, he⟩ <;> cases he
    exact Zone.priority_of_roundtrip m hv
  | _ => trivial

theorem Elem.isElem_ser {s : Sexp} {e : Elem F} (h : Elem.read s = .ok e) (hs : isElem s = true) :
    isElem e.ser = true := by
  rcases Elem.read_inv h hs with ⟨v, hv, rfl⟩ | ⟨v, hv, rfl⟩ | ⟨v, hv, rfl⟩ | ⟨v, hv, rfl⟩ |
    ⟨v, hv, rfl⟩ | ⟨v, hv, rfl⟩ | ⟨v, hv, rfl⟩ | ⟨v, hv, rfl⟩ | ⟨v, hv, rfl⟩ | ⟨v, hv, rfl⟩ |
    ⟨v, hv, rfl⟩ | ⟨hu, rfl⟩
  all_goals first | exact hs | rfl

/-- A layout that was read survives exactly if all its elements do. -/
theorem Layout.resave {s : Sexp} {l : Layout F} (hr : Layout.de s = .ok l) :
    Layout.de l.ser = .ok l ↔ ∀ e ∈ l.elements, ResavableBoard e := by
  obtain ⟨r, rfl, hes⟩ := Layout.elements_of_de hr
  have hread : ∀ e ∈ l.elements, ∃ x, isElem x = true ∧ Elem.read x = .ok e := by
    intro e he
    obtain ⟨x, hx, h⟩ := Fp.vec_mem hes e he
    exact ⟨x, (List.mem_filter.1 hx).2, h⟩
  constructor
  · intro h
    obtain ⟨r', hr', hes'⟩ := Layout.elements_of_de h
    have h6 : r' = [pair (str! "version") (ofI l.version),
      node (str! "host") [.str l.host.tool, .str l.host.build],
      l.general.ser, pair (str! "page") (.str l.page),
      node (str! "layers") (l.layers.map Layer.ser),
      l.setup.ser] ++ l.elements.map Elem.ser := by
      simp only [Layout.ser, node, Sexp.list.injEq, List.cons.injEq, true_and] at hr'
      exact hr'.symm
    have hf : r'.filter isElem = l.elements.map Elem.ser := by
      rw [h6, List.filter_append]
      have h7 : [pair (str! "version") (ofI l.version),
          node (str! "host") [.str l.host.tool, .str l.host.build],
          l.general.ser, pair (str! "page") (.str l.page),
          node (str! "layers") (l.layers.map Layer.ser), l.setup.ser].filter isElem = [] := rfl
      rw [h7, List.nil_append, List.filter_eq_self]
      intro x hx
      obtain ⟨e, he, rfl⟩ := List.mem_map.1 hx
      obtain ⟨y, hy1, hy2⟩ := hread e he
      exact Elem.isElem_ser hy2 hy1
    rw [hf] at hes'
    intro e he
    obtain ⟨x, hx1, hx2⟩ := hread e he
    exact Elem.of_roundtrip e hx2 hx1
      (Fp.vec_map_inv (Elem.read (F := F)) Elem.ser id l.elements (by simpa using hes') e he)
  · intro h
    obtain ⟨h1, h2, h3, h4⟩ := Layout.good_of_de hr
    refine Layout.de_ser' l h1 h2 h3 h4 fun e he => ?_
    obtain ⟨x, hx1, hx2⟩ := hread e he
    exact Elem.good_of_read hx2 hx1 (h e he)

theorem Layout.shapes_of_de {s : Sexp} {l : Layout F} (hr : Layout.de s = .ok l) :
    ∀ e ∈ l.elements, ∀ m, e = .module_ m → Fp.ShapesRead m := by
  obtain ⟨r, rfl, hes⟩ := Layout.elements_of_de hr
  rintro e he m rfl
  obtain ⟨x, hx, h⟩ := Fp.vec_mem hes _ he
  exact Elem.shapes_of_read h (List.mem_filter.1 hx).2

/-- What was read and whose elements survive can be saved. -/
theorem Layout.savable_of_de {s : Sexp} {l : Layout F} (hr : Layout.de s = .ok l)
    (h : ∀ e ∈ l.elements, ResavableBoard e) :
    inI64 l.version ∧ GoodGeneral l.general ∧ (∀ x ∈ l.layers, inI64 x.num ∧ GoodLayer x.layer) ∧
    (∀ s ∈ l.setup.elements, s.name ≠ str! "pcbplotparams") ∧ ∀ e ∈ l.elements, e.good := by
  obtain ⟨h1, h2, h3, h4⟩ := Layout.good_of_de hr
  refine ⟨h1, h2, h3, h4, fun e he => ?_⟩
  obtain ⟨r, rfl, hes⟩ := Layout.elements_of_de hr
  obtain ⟨x, hx, h5⟩ := Fp.vec_mem hes e he
  exact Elem.good_of_read h5 (List.mem_filter.1 hx).2 (h e he)

end Verif.Lay

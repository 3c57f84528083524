import Verif.Props.C18
import Verif.Props.C27
import Verif.Basic.Nm
/-!
# C71: the catalogue of style findings
-/

namespace Verif
open Flt Fp Spec

variable {F : Type}

/-- A rule of the library convention: where it is found, whether breaking it is
only worth a remark, what is said, and when it is broken. -/
structure Spec.StyleRule where
  sect : KLCSection
  rule : Int
  remark : Bool
  message : Str
  broken : Prop

/-- What is reported about `item` when the rule is broken. -/
def Spec.StyleRule.report (item : Str) (r : StyleRule) : CheckFixData :=
  .item ⟨r.sect.number, r.rule, item, r.message, r.remark⟩

/-- The footprint has a text of this name and the first one has a property. -/
def Spec.FirstText (m : Module F) (name : Str) (p : FpText F → Prop) : Prop :=
  ∃ t, (textsNamed m name).head? = some t ∧ p t

variable [Flt F]

/-- The rules about the lettering of one of the texts, which is called `what` in
the messages. -/
def Spec.letteringRules (cfg : Config F) (m : Module F) (name what : Str) : List StyleRule := [
  ⟨.footprintRules, 3, true, what ++ str! " label should have height " ++ toStr cfg.fontSize,
    FirstText m name fun t => ¬ Near t.effects.font.size.y cfg.fontSize⟩,
  ⟨.footprintRules, 3, true, what ++ str! " label should have width " ++ toStr cfg.fontSize,
    FirstText m name fun t => ¬ Near t.effects.font.size.x cfg.fontSize⟩,
  ⟨.footprintRules, 3, true, what ++ str! " label thickness should be " ++ toStr cfg.fontThickness,
    FirstText m name fun t => ¬ Near t.effects.font.thickness cfg.fontThickness⟩]

/-- All rules for footprints, in the order they are checked. -/
def Spec.footprintCatalogue (cfg : Config F) (m : Module F) : List StyleRule :=
  [⟨.footprintRules, 3, false, str! "reference missing", textsNamed m (str! "reference") = []⟩,
   ⟨.footprintRules, 3, false, str! "reference should be REF**",
      FirstText m (str! "reference") fun t => t.value ≠ str! "REF**"⟩,
   ⟨.footprintRules, 3, false, str! "reference should be on SilkS layertype",
      FirstText m (str! "reference") fun t => t.layer.t ≠ .silkS⟩,
   ⟨.footprintRules, 3, false, str! "reference should not be hidden",
      FirstText m (str! "reference") fun t => t.hide = true⟩,
   ⟨.footprintRules, 3, false, str! "reference label font aspect ratio should be 1:1",
      FirstText m (str! "reference") fun t => ¬ Near t.effects.font.size.x t.effects.font.size.y⟩] ++
  letteringRules cfg m (str! "reference") (str! "reference") ++
  [⟨.footprintRules, 4, false, str! "value missing", textsNamed m (str! "value") = []⟩,
   ⟨.footprintRules, 4, false, str! "value text has to match footprint name",
      FirstText m (str! "value") fun t => t.value ≠ m.name⟩,
   ⟨.footprintRules, 4, false, str! "value text has to be on Fab layer",
      FirstText m (str! "value") fun t => t.layer.t ≠ .fab⟩,
   ⟨.footprintRules, 4, false, str! "value text should not be hidden",
      FirstText m (str! "value") fun t => t.hide = true⟩] ++
  letteringRules cfg m (str! "value") (str! "value") ++
  [⟨.footprintRules, 4, false, str! "reference 2 missing", textsNamed m (str! "user") = []⟩,
   ⟨.footprintRules, 4, false, str! "reference 2 should be %R",
      FirstText m (str! "user") fun t => t.value ≠ str! "%R"⟩,
   ⟨.footprintRules, 4, false, str! "reference 2 should be on Fab layertype",
      FirstText m (str! "user") fun t => t.layer.t ≠ .fab⟩,
   ⟨.footprintRules, 4, false, str! "reference 2 label font aspect ratio should be 1:1",
      FirstText m (str! "user") fun t => ¬ Near t.effects.font.size.x t.effects.font.size.y⟩] ++
  letteringRules cfg m (str! "user") (str! "reference 2") ++
  [⟨.footprintRules, 5, false, str! "missing courtyard on CrtYd layer", (courtyard m).length < 4⟩,
   ⟨.smdRules, 1, false, str! "SMD components need to have placement Smd (Normal+Insert in Properties)",
      HasPad m .smd ∧ ¬ HasPad m .pth ∧ ¬ MarkedSmd m⟩,
   ⟨.thtRules, 1, false, str! "SMD components need to have placement Smd (Normal+Insert in Properties)",
      HasPad m .pth ∧ ¬ HasPad m .smd ∧ MarkedSmd m⟩]

/-! ## Lemmas -/

open Classical in
/-- Reports for the broken ones of some rules. -/
noncomputable def Spec.brokenReports (item : Str) (rs : List StyleRule) : List CheckFixData :=
  (rs.filter fun r => decide r.broken).map (StyleRule.report item)

theorem Spec.brokenReports_append (item : Str) (a b : List StyleRule) :
    brokenReports item (a ++ b) = brokenReports item a ++ brokenReports item b := by
  simp [brokenReports]

theorem Spec.brokenReports_cons (item : Str) (r : StyleRule) (b : List StyleRule) (c : Bool)
    (h : c = true ↔ r.broken) :
    brokenReports item (r :: b) = when_ c (r.report item) ++ brokenReports item b := by
  cases c
  · have : ¬ r.broken := fun hb => by simpa using h.2 hb
    simp [brokenReports, when_, this]
  · simp [brokenReports, when_, h.1 rfl]

theorem Spec.brokenReports_nil (item : Str) : brokenReports item [] = [] := rfl

theorem Fp.differs_not_near [OrdLaws F] (a b : F) : differs a b = true ↔ ¬ Near a b := by
  rw [← Fp.differs_iff]; simp

/-- The check reports, in order, exactly the broken ones of the rules. -/
theorem C71_footprint_findings [OrdLaws F] (m : Module F) (cfg : Config F) :
    m.check cfg = brokenReports m.name (footprintCatalogue cfg m) := by
  have hx : ∀ (l : List (FpText F)), (l.head? = none ↔ l = []) := fun l => List.head?_eq_none_iff
  have yes : ∀ (w : Str) (t : FpText F), (textsNamed m w).head? = some t → ∀ (p : FpText F → Prop) (c : Bool),
      (c = true ↔ p t) → (c = true ↔ FirstText m w p) := by
    intro w t ht p c hc
    rw [hc]
    constructor
    · exact fun h => ⟨t, ht, h⟩
    · rintro ⟨t', h', hp⟩
      rw [ht, Option.some.injEq] at h'
      exact h' ▸ hp
  have no : ∀ (w : Str), (textsNamed m w).head? = none → ∀ (p : FpText F → Prop), (false = true ↔ FirstText m w p) := by
    intro w ht p
    simp [FirstText, ht]
  have h1 : checkReference cfg m.name (m.getText (str! "reference")) = brokenReports m.name
      ([⟨.footprintRules, 3, false, str! "reference missing", textsNamed m (str! "reference") = []⟩,
        ⟨.footprintRules, 3, false, str! "reference should be REF**",
          FirstText m (str! "reference") fun t => t.value ≠ str! "REF**"⟩,
        ⟨.footprintRules, 3, false, str! "reference should be on SilkS layertype",
          FirstText m (str! "reference") fun t => t.layer.t ≠ .silkS⟩,
        ⟨.footprintRules, 3, false, str! "reference should not be hidden",
          FirstText m (str! "reference") fun t => t.hide = true⟩,
        ⟨.footprintRules, 3, false, str! "reference label font aspect ratio should be 1:1",
          FirstText m (str! "reference") fun t => ¬ Near t.effects.font.size.x t.effects.font.size.y⟩] ++
      letteringRules cfg m (str! "reference") (str! "reference")) := by
    rw [Fp.getText_eq, letteringRules]
    cases h : (textsNamed m (str! "reference")).head? with
    | none =>
      have hn := no _ h
      simp only [List.cons_append, List.nil_append]
      rw [brokenReports_cons _ _ _ true (by simpa using (hx _).1 h)]
      repeat rw [brokenReports_cons _ _ _ false (hn _)]
      rfl
    | some t =>
      have hy := yes _ t h
      have hne : textsNamed m (str! "reference") ≠ [] := fun h' => by simp [h'] at h
      simp only [List.cons_append, List.nil_append]
      rw [brokenReports_cons _ _ _ false (by simpa using hne),
        brokenReports_cons _ _ _ (decide (t.value ≠ str! "REF**")) (hy _ _ (by simp)),
        brokenReports_cons _ _ _ (decide (t.layer.t ≠ .silkS)) (hy _ _ (by simp)),
        brokenReports_cons _ _ _ t.hide (hy _ _ (by simp)),
        brokenReports_cons _ _ _ (differs t.effects.font.size.x t.effects.font.size.y) (hy _ _ (differs_not_near _ _)),
        brokenReports_cons _ _ _ (differs t.effects.font.size.y cfg.fontSize) (hy _ _ (differs_not_near _ _)),
        brokenReports_cons _ _ _ (differs t.effects.font.size.x cfg.fontSize) (hy _ _ (differs_not_near _ _)),
        brokenReports_cons _ _ _ (differs t.effects.font.thickness cfg.fontThickness) (hy _ _ (differs_not_near _ _)),
        brokenReports_nil]
      simp [checkReference, StyleRule.report, CheckFixData.new, CheckFixData.newInfo, KLCSection.number, when_]
  have h2 : checkValue cfg m.name (m.getText (str! "value")) = brokenReports m.name
      ([⟨.footprintRules, 4, false, str! "value missing", textsNamed m (str! "value") = []⟩,
        ⟨.footprintRules, 4, false, str! "value text has to match footprint name",
          FirstText m (str! "value") fun t => t.value ≠ m.name⟩,
        ⟨.footprintRules, 4, false, str! "value text has to be on Fab layer",
          FirstText m (str! "value") fun t => t.layer.t ≠ .fab⟩,
        ⟨.footprintRules, 4, false, str! "value text should not be hidden",
          FirstText m (str! "value") fun t => t.hide = true⟩] ++
      letteringRules cfg m (str! "value") (str! "value")) := by
    rw [Fp.getText_eq, letteringRules]
    cases h : (textsNamed m (str! "value")).head? with
    | none =>
      have hn := no _ h
      simp only [List.cons_append, List.nil_append]
      rw [brokenReports_cons _ _ _ true (by simpa using (hx _).1 h)]
      repeat rw [brokenReports_cons _ _ _ false (hn _)]
      rfl
    | some t =>
      have hy := yes _ t h
      have hne : textsNamed m (str! "value") ≠ [] := fun h' => by simp [h'] at h
      simp only [List.cons_append, List.nil_append]
      rw [brokenReports_cons _ _ _ false (by simpa using hne),
        brokenReports_cons _ _ _ (decide (t.value ≠ m.name)) (hy _ _ (by simp)),
        brokenReports_cons _ _ _ (decide (t.layer.t ≠ .fab)) (hy _ _ (by simp)),
        brokenReports_cons _ _ _ t.hide (hy _ _ (by simp)),
        brokenReports_cons _ _ _ (differs t.effects.font.size.y cfg.fontSize) (hy _ _ (differs_not_near _ _)),
        brokenReports_cons _ _ _ (differs t.effects.font.size.x cfg.fontSize) (hy _ _ (differs_not_near _ _)),
        brokenReports_cons _ _ _ (differs t.effects.font.thickness cfg.fontThickness) (hy _ _ (differs_not_near _ _)),
        brokenReports_nil]
      simp [checkValue, StyleRule.report, CheckFixData.new, CheckFixData.newInfo, KLCSection.number, when_]
  have h3 : checkReference2 cfg m.name (m.getText (str! "user")) = brokenReports m.name
      ([⟨.footprintRules, 4, false, str! "reference 2 missing", textsNamed m (str! "user") = []⟩,
        ⟨.footprintRules, 4, false, str! "reference 2 should be %R",
          FirstText m (str! "user") fun t => t.value ≠ str! "%R"⟩,
        ⟨.footprintRules, 4, false, str! "reference 2 should be on Fab layertype",
          FirstText m (str! "user") fun t => t.layer.t ≠ .fab⟩,
        ⟨.footprintRules, 4, false, str! "reference 2 label font aspect ratio should be 1:1",
          FirstText m (str! "user") fun t => ¬ Near t.effects.font.size.x t.effects.font.size.y⟩] ++
      letteringRules cfg m (str! "user") (str! "reference 2")) := by
    rw [Fp.getText_eq, letteringRules]
    cases h : (textsNamed m (str! "user")).head? with
    | none =>
      have hn := no _ h
      simp only [List.cons_append, List.nil_append]
      rw [brokenReports_cons _ _ _ true (by simpa using (hx _).1 h)]
      repeat rw [brokenReports_cons _ _ _ false (hn _)]
      rfl
    | some t =>
      have hy := yes _ t h
      have hne : textsNamed m (str! "user") ≠ [] := fun h' => by simp [h'] at h
      simp only [List.cons_append, List.nil_append]
      rw [brokenReports_cons _ _ _ false (by simpa using hne),
        brokenReports_cons _ _ _ (decide (t.value ≠ str! "%R")) (hy _ _ (by simp)),
        brokenReports_cons _ _ _ (decide (t.layer.t ≠ .fab)) (hy _ _ (by simp)),
        brokenReports_cons _ _ _ (differs t.effects.font.size.x t.effects.font.size.y) (hy _ _ (differs_not_near _ _)),
        brokenReports_cons _ _ _ (differs t.effects.font.size.y cfg.fontSize) (hy _ _ (differs_not_near _ _)),
        brokenReports_cons _ _ _ (differs t.effects.font.size.x cfg.fontSize) (hy _ _ (differs_not_near _ _)),
        brokenReports_cons _ _ _ (differs t.effects.font.thickness cfg.fontThickness) (hy _ _ (differs_not_near _ _)),
        brokenReports_nil]
      simp [checkReference2, StyleRule.report, CheckFixData.new, CheckFixData.newInfo, KLCSection.number, when_]
  have h4 : when_ (decide (courtyardCount m < 4)) (.new 7 5 m.name (str! "missing courtyard on CrtYd layer")) ++
      checkPlacement m = brokenReports m.name
      [⟨.footprintRules, 5, false, str! "missing courtyard on CrtYd layer", (courtyard m).length < 4⟩,
       ⟨.smdRules, 1, false, str! "SMD components need to have placement Smd (Normal+Insert in Properties)",
          HasPad m .smd ∧ ¬ HasPad m .pth ∧ ¬ MarkedSmd m⟩,
       ⟨.thtRules, 1, false, str! "SMD components need to have placement Smd (Normal+Insert in Properties)",
          HasPad m .pth ∧ ¬ HasPad m .smd ∧ MarkedSmd m⟩] := by
    have s := Fp.padCount_pos m .smd
    have p := Fp.padCount_pos m .pth
    have a := Fp.hasSmdAttr_iff m
    change 0 < smdCount m ↔ _ at s
    change 0 < pthCount m ↔ _ at p
    rw [brokenReports_cons _ _ _ (decide (courtyardCount m < 4)) (by rw [Fp.courtyardCount_eq]; simp),
      brokenReports_cons _ _ _ (decide (0 < smdCount m) && decide (¬ 0 < pthCount m) && !m.hasSmdAttr)
        (by simp [← s, ← p, ← a, and_assoc]),
      brokenReports_cons _ _ _ (decide (0 < pthCount m) && decide (¬ 0 < smdCount m) && m.hasSmdAttr)
        (by simp [← s, ← p, ← a, and_assoc]), brokenReports_nil]
    simp only [checkPlacement, StyleRule.report, CheckFixData.new, KLCSection.number, placementMsg]
    rcases hx : smdCount m with _ | x <;> rcases hy : pthCount m with _ | y <;>
      cases m.hasSmdAttr <;> simp [when_]
  rw [Module.check, List.append_assoc, h1, h2, h3, h4, footprintCatalogue]
  simp only [← brokenReports_append, List.append_assoc]

/-- A part of a message that tells the messages apart. -/
def Spec.messageKey (m : Str) : Str := if m[10]? = some '2' then m.take 31 else m.take 30

/-- Section and message of a finding. -/
def Spec.findingKey : CheckFixData → Int × Str
  | .item i => (i.section_, messageKey i.message)
  | .more _ => (0, [])

/-- Nothing is reported twice. -/
theorem C71_no_duplicates [OrdLaws F] (m : Module F) (cfg : Config F) : (m.check cfg).Nodup := by
  rw [C71_footprint_findings]
  have hs : (brokenReports m.name (footprintCatalogue cfg m)).Sublist
      ((footprintCatalogue cfg m).map (StyleRule.report m.name)) := (List.filter_sublist).map _
  refine hs.nodup ?_
  have hk : (((footprintCatalogue cfg m).map (StyleRule.report m.name)).map findingKey).Nodup := by
    have : ((footprintCatalogue cfg m).map (StyleRule.report m.name)).map findingKey =
        [(7, str! "reference missing"), (7, str! "reference should be REF**"),
         (7, str! "reference should be on SilkS l"), (7, str! "reference should not be hidden"),
         (7, str! "reference label font aspect ra"), (7, str! "reference label should have he"),
         (7, str! "reference label should have wi"), (7, str! "reference label thickness shou"),
         (7, str! "value missing"), (7, str! "value text has to match footpr"),
         (7, str! "value text has to be on Fab la"), (7, str! "value text should not be hidde"),
         (7, str! "value label should have height"), (7, str! "value label should have width "),
         (7, str! "value label thickness should b"),
         (7, str! "reference 2 missing"), (7, str! "reference 2 should be %R"),
         (7, str! "reference 2 should be on Fab la"), (7, str! "reference 2 label font aspect r"),
         (7, str! "reference 2 label should have h"), (7, str! "reference 2 label should have w"),
         (7, str! "reference 2 label thickness sho"), (7, str! "missing courtyard on CrtYd lay"),
         (8, str! "SMD components need to have pl"), (9, str! "SMD components need to have pl")] := rfl
    rw [this]
    decide
  exact List.Nodup.of_map _ hk

/-- Findings about a footprint name the footprint and a section of the convention
that is about footprints. -/
theorem C71_footprint_sections [OrdLaws F] (m : Module F) (cfg : Config F) :
    ∀ d ∈ m.check cfg, ∃ i, d = .item i ∧ i.item = m.name ∧
      ∃ s ∈ [KLCSection.footprintRules, .smdRules, .thtRules], i.section_ = s.number := by
  rw [C71_footprint_findings]
  intro d hd
  obtain ⟨r, hr, rfl⟩ := List.mem_map.1 hd
  refine ⟨_, rfl, rfl, r.sect, ?_, rfl⟩
  have h : ∀ r ∈ footprintCatalogue cfg m, r.sect ∈ [KLCSection.footprintRules, .smdRules, .thtRules] := by
    simp only [footprintCatalogue, letteringRules, List.forall_mem_append, List.forall_mem_cons]
    simp
  exact h r (List.mem_filter.1 hr).1

/-- Findings about a symbol are found in the general section or in the one about
symbols. -/
theorem C71_symbol_sections (s : Lib.Symbol F) (i : CheckFixItem) (h : i ∈ (leavesAll 0 s.check).map Prod.snd) :
    i.section_ = KLCSection.general.number ∨ i.section_ = KLCSection.symbolRules.number := by
  cases (C18_symbol_findings s i).1 h with
  | name _ h =>
    obtain ⟨y, _, e⟩ := List.mem_map.1 h
    cases e; exact .inl rfl
  | field f _ _ h => cases h <;> exact .inr rfl
  | pin p _ _ _ _ h => cases h <;> exact .inr rfl
  | rect p _ _ _ _ h => cases h <;> exact .inr rfl

/-- Neither two sections with the same number nor two with the same title exist,
and the numbers run from one to ten. -/
theorem C71_section_numbers (a b : KLCSection) :
    (a.number = b.number → a = b) ∧ (a.show = b.show → a = b) ∧ 1 ≤ a.number ∧ a.number ≤ 10 := by
  cases a <;> cases b <;> decide

/-- A surface-mount footprint with nothing but a pad and a hidden reference in
the wrong size. -/
example : (Module.check (F := Nm) ⟨str! "R", [
      .pad ⟨str! "1", .smd, .rect, ⟨⟨2000000⟩, ⟨3000000⟩, .size⟩, none, ⟨⟨1000000⟩, ⟨1500000⟩, zero⟩,
        [⟨.front, .cu⟩], none, none, none, none, none, none, none⟩,
      .text ⟨str! "reference", str! "REF**", ⟨zero, zero, zero⟩, ⟨.front, .silkS⟩,
        ⟨⟨⟨⟨2000000⟩, ⟨1000000⟩, .size⟩, ⟨150000⟩, false⟩, none⟩, true⟩]⟩ Config.klc) = [
    .item ⟨7, 3, str! "R", str! "reference should not be hidden", false⟩,
    .item ⟨7, 3, str! "R", str! "reference label font aspect ratio should be 1:1", false⟩,
    .item ⟨7, 3, str! "R", str! "reference label should have width 1", true⟩,
    .item ⟨7, 4, str! "R", str! "value missing", false⟩,
    .item ⟨7, 4, str! "R", str! "reference 2 missing", false⟩,
    .item ⟨7, 5, str! "R", str! "missing courtyard on CrtYd layer", false⟩,
    .item ⟨8, 1, str! "R", str! "SMD components need to have placement Smd (Normal+Insert in Properties)", false⟩] :=
  rfl

end Verif

import Verif.Spec.NotANumber
import Verif.Lemmas.FpCodec
import Verif.Model.Footprint.Check
import Verif.Model.Layout.Data
import Verif.Props.C19
import Verif.Props.C35
/-!
# C84: numbers that are not numbers
-/

namespace Verif
open Flt Spec Fp64 Fp

/-! ## Reading -/

theorem F64.lower_iff (c : Char) (p : Char × Char) (hp : p ∈ infinityWord ++ nanWord) :
    F64.lower c = p.1 ↔ c = p.1 ∨ c = p.2 := by
  have key : ∀ d D : Char, 65 ≤ D.toNat ∧ D.toNat ≤ 90 → d.toNat = D.toNat + 32 →
      (F64.lower c = d ↔ c = d ∨ c = D) := by
    intro d D hD hd
    have inj : ∀ a b : Char, a.toNat = b.toNat → a = b := fun a b h => by
      rw [← Char.ofNat_toNat a, h, Char.ofNat_toNat]
    unfold F64.lower
    have hA : 'A'.toNat = 65 := rfl
    have hZ : 'Z'.toNat = 90 := rfl
    rw [hA, hZ]
    split
    · rename_i h
      have hv : (Char.ofNat (c.toNat + 32)).toNat = c.toNat + 32 := by
        generalize c.toNat = n at h
        have key : ∀ k : Fin 26, (Char.ofNat (65 + k.val + 32)).toNat = 65 + k.val + 32 := by decide
        have := key ⟨n - 65, by omega⟩
        rwa [show 65 + (n - 65) = n by omega] at this
      constructor
      · intro e
        right; apply inj; rw [← e, hv] at hd; omega
      · rintro (rfl | rfl)
        · omega
        · apply inj; rw [hv, hd]
    · rename_i h
      constructor
      · exact Or.inl
      · rintro (rfl | rfl)
        · rfl
        · exact absurd hD h
  have := List.mem_append.1 hp
  simp only [infinityWord, infWord, nanWord, List.mem_append, List.mem_cons, List.not_mem_nil, or_false] at this
  rcases this with ((rfl | rfl | rfl) | rfl | rfl | rfl | rfl | rfl) | rfl | rfl | rfl <;>
    exact key _ _ (by decide) (by decide)

theorem F64.spelled_iff (t : Str) (w : List (Char × Char)) (hw : ∀ p ∈ w, p ∈ infinityWord ++ nanWord) :
    t.map F64.lower = w.map Prod.fst ↔ Spelled t w := by
  unfold Spelled
  induction w generalizing t with
  | nil => simp
  | cons p w ih =>
    rw [List.forall_mem_cons] at hw
    cases t with
    | nil => simp
    | cons c t => simp [ih t hw.2, F64.lower_iff c p hw.1]

theorem F64.splitSign_iff (s t : Str) (b : Bool) : splitSign s = (b, t) ↔ Signed s t b := by
  unfold splitSign Signed
  split
  · simp [eq_comm, and_comm]
  · simp [eq_comm, and_comm]
  · rename_i h1 h2
    have a1 : s.head? ≠ some '-' := by
      rcases s with _ | ⟨c, s⟩
      · simp
      · rintro h; simp at h; exact h1 s (by rw [h])
    have a2 : s.head? ≠ some '+' := by
      rcases s with _ | ⟨c, s⟩
      · simp
      · rintro h; simp at h; exact h2 s (by rw [h])
    constructor
    · rintro h
      cases h
      exact Or.inr (Or.inr ⟨rfl, rfl, a1, a2⟩)
    · rintro (⟨rfl, -⟩ | ⟨rfl, -⟩ | ⟨rfl, rfl, -⟩)
      · simp at a1
      · simp at a2
      · rfl

theorem F64.of_ne_nan (q : ℚ) : F64.of q ≠ .nan := by
  unfold F64.of; split <;> simp

/-- A text is read as NaN exactly if it is the word `nan`, in any spelling and with
or without a sign. -/
theorem C84_read_nan (s : Str) : (ofStr s : Option F64) = some .nan ↔
    ∃ t b, Signed s t b ∧ Spelled t nanWord := by
  rcases hs : splitSign s with ⟨b, t⟩
  have e : ((ofStr s : Option F64) = some .nan) ↔ t.map F64.lower = nanWord.map Prod.fst := by
    show F64.ofStr s = _ ↔ _
    simp only [F64.ofStr, hs]
    show _ ↔ t.map F64.lower = str! "nan"
    by_cases h1 : t.map F64.lower = str! "nan"
    · simp [h1]
    · simp only [h1, if_false, iff_false]
      split
      · simp
      · cases readMag t <;> simp [F64.of_ne_nan]
  rw [e, F64.spelled_iff _ _ (by decide)]
  constructor
  · exact fun h => ⟨t, b, (F64.splitSign_iff ..).1 hs, h⟩
  · rintro ⟨t', b', h1, h2⟩
    have := (F64.splitSign_iff ..).2 h1
    rw [hs] at this
    cases this
    exact h2

/-- Between the largest number and infinity: half a unit above the largest number. -/
def Spec.overflowAt : ℚ := pow2 1024 - pow2 970

theorem round64_overflow (q : ℚ) : pow2 1024 ≤ round64 q ↔ overflowAt ≤ q := by
  constructor
  · intro h
    by_contra hlt
    rw [not_le] at hlt
    have hmax : IsF64 (pow2 1024 - pow2 971) := ⟨2 ^ 53 - 1, 971, by norm_num, by norm_num, by
      have : pow2 1024 = 2 ^ 53 * pow2 971 := by
        rw [show (1024 : Int) = 53 + 971 by norm_num, pow2_add]; rfl
      rw [this]; push_cast; ring⟩
    have e : pow2 971 = 2 * pow2 970 := by
      rw [show (971 : Int) = 1 + 970 by norm_num, pow2_add]; rfl
    have p := pow2_pos 970
    by_cases hq : q ≤ pow2 1024 - pow2 971
    · have := round64_le hmax hq
      have := pow2_pos 971
      linarith
    · rw [not_le] at hq
      have := round64_nearest q hmax
      unfold overflowAt at hlt
      rw [abs_of_neg (by linarith), abs_of_pos (by linarith)] at this
      linarith
  · intro h
    have : round64 overflowAt = pow2 1024 := by
      unfold overflowAt; decide +kernel
    rw [← this]
    exact round64_mono h

/-- A decimal number is read as an infinity exactly if it is, in absolute value, at
least the largest number and half a unit. -/
theorem C84_read_overflow (q : ℚ) : (∃ b, F64.of q = .inf b) ↔ overflowAt ≤ |q| := by
  have e : (∃ b, F64.of q = .inf b) ↔ pow2 1024 ≤ |round64 q| := by
    unfold F64.of
    split
    · rename_i h
      simp only [reduceCtorEq, exists_false, false_iff, not_le]
      exact h
    · rename_i h
      simp only [F64.inf.injEq, exists_eq', true_iff]
      exact not_lt.1 h
  rw [e]
  rcases abs_cases q with ⟨h, hq⟩ | ⟨h, hq⟩
  · rw [h, abs_of_nonneg (le_round64 isF64_zero hq), round64_overflow]
  · rw [h, ← abs_neg, ← round64_neg, abs_of_nonneg (le_round64 isF64_zero (by linarith)), round64_overflow]

/-- An infinity is written as a word, which is not a number for any other program. -/
theorem C84_infinity_written (b : Bool) : (toStr (.inf b : F64) = if b then str! "-inf" else str! "inf") ∧
    (toStr (.nan : F64) = str! "NaN") := by
  cases b <;> exact ⟨rfl, rfl⟩

/-! ## Saving -/

/-- A letter size that is NaN in both directions is not saved: the text is read
back with letters of size zero. -/
theorem C84_font_lost (f : Font F64) (h : f.size.x = .nan) (h' : f.size.y = .nan) :
    Font.de f.ser = .ok { f with size := ⟨zero, zero, .xy⟩ } := by
  obtain ⟨⟨x, y, t⟩, th, it⟩ := f
  simp only at h h'
  subst h h'
  have := Font.de_ser (F := F64) ⟨⟨zero, zero, .xy⟩, th, it⟩ ⟨rfl, Or.inr (Or.inr ⟨rfl, rfl⟩)⟩
  rw [← this]
  have hz : lt (zero : F64) zero = false := by rw [F64.zero_eq]; simp [F64.lt, Flt.lt]
  simp [Font.ser, hz]

theorem Spec.nan_hole (d : Drill F64) (h : d.width = .nan)
    (hs : d.shape = none ∨ d.shape = some (str! "oval")) :
    (Drill.de d.ser : Res (Drill F64)) = .err .sexp := by
  obtain ⟨s, w, hh, ox, oy⟩ := d
  simp only at h hs
  subst h
  have hw : ∀ i : List Sexp, (i = [] ∨ ∃ x, i = [Sx.node (str! "offset") x]) →
      Sx.eat (Sx.flt (F := F64)) i = .err .sexp := by
    rintro i (rfl | ⟨x, rfl⟩) <;> rfl
  have ho : ∀ x, Sx.literal (str! "oval") (Sx.node (str! "offset") x) = .err .sexp := fun x => rfl
  by_cases hc : (!feq ox zero || !feq oy zero) = true
  · rcases hs with rfl | rfl
    · simp [Drill.ser, Drill.de, hc, Sx.maybe_err (ho _), hw _ (Or.inr ⟨_, rfl⟩)]
    · simp [Drill.ser, Drill.de, hc, Sx.maybe_ok (Sx.literal_self _), hw _ (Or.inr ⟨_, rfl⟩)]
  · rcases hs with rfl | rfl
    · simp [Drill.ser, Drill.de, hc, hw _ (Or.inl rfl)]
    · simp [Drill.ser, Drill.de, hc, Sx.maybe_ok (Sx.literal_self _), hw _ (Or.inl rfl)]

/-- A hole whose width is NaN makes the saved pad unreadable. -/
theorem C84_hole_unreadable (p : Pad F64) (d : Drill F64) (hd : p.drill = some d) (h : d.width = .nan)
    (hs : d.shape = none ∨ d.shape = some (str! "oval")) :
    (Pad.de p.ser : Res (Pad F64)) = .err .sexp := by
  have h1 := Spec.nan_hole d h hs
  have hn : Sx.listName d.ser = .ok (str! "drill") := rfl
  have h2 : (Layers.de d.ser : Res (List Layer)) = .err .sexp := rfl
  have h3 : (Part.de d.ser : Res (Part F64)) = .err .sexp := by simp [Part.de, hn]
  have ht : PadType.fromString p.t.show = .ok p.t := by cases p.t <;> decide
  have hsh : PadShape.fromString p.shape.show = .ok p.shape := by cases p.shape <;> decide
  have hx : (Xy.de p.size.ser : Res (Xy F64)) = .ok p.size := Xy.de_ser _
  have ha : (At.de p.at_.ser : Res (At F64)) = .ok p.at_ := At.de_ser _
  simp only [Pad.de, Pad.ser, hd, Sx.iter_node, Res.bind_ok, List.cons_append, List.nil_append, Sx.eat_cons,
    Sx.string_str, ht, hsh, Sx.maybe_ok ha, Sx.maybe_ok hx, Sx.maybe_err h1, Sx.maybe_err h2, Sx.vec, h3,
    Res.bind_err]

/-- Such a pad is read without complaint. -/
theorem C84_hole_read : (Drill.de (Sx.node (str! "drill") [.str (str! "nan")]) : Res (Drill F64)) =
    .ok ⟨none, .nan, .nan, zero, zero⟩ := by
  have hl : Sx.literal (str! "oval") (.str (str! "nan")) = .err .sexp := by decide
  have hf : (Sx.flt (.str (str! "nan")) : Res F64) = .ok .nan := by decide
  simp [Drill.de, Sx.maybe_err hl, hf]

example : ∃ p : Pad F64, (Pad.de p.ser : Res (Pad F64)) = .err .sexp :=
  ⟨{ Pad.new (str! "1") .pth .circle with drill := some ⟨none, .nan, .nan, zero, zero⟩ },
    C84_hole_unreadable _ _ rfl rfl (Or.inl rfl)⟩

/-- A footprint with NaN and infinities. -/
def Spec.oddModule : Module F64 :=
  ⟨str! "a", [.at_ ⟨.nan, .inf true, .nan⟩, .line { FpLine.dflt with width := .inf false }]⟩

/-- Everywhere else NaN and the infinities are saved and read back: here in a place
and in the width of a line. -/
example (q : Str → Bool) (hq : QuotesWhenNeeded q) :
    Fp.parse (Fp.toText q 0 Spec.oddModule ++ []) = .ok Spec.oddModule := by
  refine C19_footprint_roundtrip q hq 0 _ ⟨by decide, ?_⟩ [] Sexp.Text.blank_nil
  simp only [Spec.oddModule, List.forall_mem_cons]
  refine ⟨⟨trivial, by simp [strings]⟩, ⟨⟨?_, rfl, rfl⟩, ?_⟩, by simp⟩
  · intro s hs; simp [FpLine.dflt, Layer.dflt] at hs
  · simp [strings, FpLine.dflt, Layer.dflt, layerStrings]

/-! ## Checking -/

theorem F64.differs_nan (a : F64) : differs .nan a = false ∧ differs a .nan = false := by
  simp [differs]

theorem F64.differs_self (a : F64) (h : a ≠ .nan) (h' : ∀ b, a ≠ .inf b) : differs a a = false := by
  cases a with
  | nan => exact absurd rfl h
  | inf b => exact absurd rfl (h' b)
  | fin a ha =>
    have hv : (Flt.sub a a).val = 0 := by
      show round64 (a.val - a.val) = 0
      rw [sub_self, round64_zero]
    have hz : |(Flt.sub a a).val| < pow2 1024 := by rw [hv, abs_zero]; exact pow2_pos _
    unfold differs
    rw [F64.sub_fin a a ha ha hz]
    have e : (eps : F64) = F64.of (pow2 (-52)) := rfl
    have e1 : Flt.abs (F64.fin (Flt.sub a a) hz) = F64.of |(Flt.sub a a).val| := rfl
    rw [e1, hv, abs_zero]
    have e2 : F64.of 0 = zero := by rw [F64.zero_eq]; exact F64.of_of _
    rw [e2]
    decide +kernel

/-- A text with another font. -/
def Spec.setFont {F : Type} (size thickness : F) (t : FpText F) : FpText F :=
  { t with effects := { t.effects with font := { t.effects.font with
      size := { t.effects.font.size with x := size, y := size }
      thickness := thickness } } }

theorem Spec.getText_withFonts {F : Type} (s t : F) (m : Module F) (w : Str) :
    (withFonts s t m).getText w = (m.getText w).map (setFont s t) := by
  obtain ⟨n, es⟩ := m
  simp only [withFonts, Module.getText]
  induction es with
  | nil => rfl
  | cons e es ih =>
    rw [List.map_cons, List.findSome?_cons, List.findSome?_cons]
    cases e with
    | text x =>
      by_cases h : x.name = w
      · simp [h, setFont]
      · simpa [h] using ih
    | _ => simpa using ih

theorem Spec.filterMap_withFonts {F α : Type} (s t : F) (m : Module F) (f : Elem F → Option α)
    (hf : ∀ x, f (.text x) = none) :
    (withFonts s t m).elements.filterMap f = m.elements.filterMap f := by
  simp only [withFonts, List.filterMap_map]
  congr 1
  funext e
  cases e <;> simp [hf]

theorem Spec.lines_withFonts {F : Type} (s t : F) (m : Module F) : (withFonts s t m).lines = m.lines :=
  filterMap_withFonts s t m _ fun _ => rfl

theorem Spec.pads_withFonts {F : Type} (s t : F) (m : Module F) : (withFonts s t m).pads = m.pads :=
  filterMap_withFonts s t m _ fun _ => rfl

theorem Spec.smd_withFonts {F : Type} (s t : F) (m : Module F) :
    (withFonts s t m).hasSmdAttr = m.hasSmdAttr := by
  simp only [withFonts, Module.hasSmdAttr, List.any_map]
  congr 1
  funext e
  cases e <;> rfl

/-- The style check takes NaN for the right size: it finds in a footprint whose
letters have NaN for their sizes exactly what it finds when they have the sizes
asked for. -/
theorem C84_check_silent (m : Module F64) (cfg : Config F64) (h : ∀ b, cfg.fontSize ≠ .inf b)
    (h' : ∀ b, cfg.fontThickness ≠ .inf b) :
    (withFonts .nan .nan m).check cfg = (withFonts cfg.fontSize cfg.fontThickness m).check cfg := by
  have hc : ∀ s t : F64, courtyardCount (withFonts s t m) = courtyardCount m := fun s t => by
    simp only [courtyardCount, lines_withFonts]
  have hs : ∀ s t : F64, smdCount (withFonts s t m) = smdCount m := fun s t => by
    simp only [smdCount, pads_withFonts]
  have hp : ∀ s t : F64, pthCount (withFonts s t m) = pthCount m := fun s t => by
    simp only [pthCount, pads_withFonts]
  have hd : ∀ a : F64, (∀ b, a ≠ .inf b) → differs a a = false := fun a ha => by
    by_cases hn : a = .nan
    · rw [hn]; exact (F64.differs_nan _).1
    · exact F64.differs_self a hn ha
  have e1 := hd _ h
  have e2 := hd _ h'
  have hn : ∀ s t : F64, (withFonts s t m).name = m.name := fun _ _ => rfl
  simp only [Module.check, getText_withFonts, checkPlacement, smd_withFonts, hc, hs, hp, hn]
  have r1 : ∀ o : Option (FpText F64), checkReference cfg m.name (o.map (setFont .nan .nan)) =
      checkReference cfg m.name (o.map (setFont cfg.fontSize cfg.fontThickness)) := by
    rintro (_ | x) <;> simp [checkReference, setFont, F64.differs_nan, e1, e2]
  have r2 : ∀ o : Option (FpText F64), checkValue cfg m.name (o.map (setFont .nan .nan)) =
      checkValue cfg m.name (o.map (setFont cfg.fontSize cfg.fontThickness)) := by
    rintro (_ | x) <;> simp [checkValue, setFont, F64.differs_nan, e1, e2]
  have r3 : ∀ o : Option (FpText F64), checkReference2 cfg m.name (o.map (setFont .nan .nan)) =
      checkReference2 cfg m.name (o.map (setFont cfg.fontSize cfg.fontThickness)) := by
    rintro (_ | x) <;> simp [checkReference2, setFont, F64.differs_nan, e1, e2]
  rw [r1, r2, r3]

/-! ## Comparing -/

/-- An element is equal to itself exactly if none of its compared numbers is NaN. -/
theorem C84_self_equal (e : Elem F64) : e.eq e = true ↔ F64.nan ∉ compared e := by
  have fs : ∀ a : F64, feq a a = true ↔ ¬ F64.nan = a := fun a => (F64.feq_self a).trans ⟨fun h e => h e.symm, fun h e => h e.symm⟩
  have hx : ∀ p : Xy F64, p.eq p = true ↔ F64.nan ∉ xyNumbers p := fun p => by
    simp [Xy.eq, xyNumbers, fs]
  have ha : ∀ p : At F64, p.eq p = true ↔ F64.nan ∉ atNumbers p := fun p => by
    simp [At.eq, atNumbers, fs, and_assoc]
  have hl : ∀ l : Layer, l.eq l = true := fun l => by simp [Layer.eq]
  have hls : ∀ l : List Layer, listEq Layer.eq l l = true := fun l => by
    induction l with
    | nil => rfl
    | cons a l ih => simp [listEq, hl, ih]
  have hxs : ∀ l : List (Xy F64), listEq Xy.eq l l = true ↔ F64.nan ∉ l.flatMap xyNumbers := fun l => by
    induction l with
    | nil => simp [listEq]
    | cons a l ih => simp [listEq, hx, ih]
  have ho : ∀ o : Option F64, optEq feq o o = true ↔ F64.nan ∉ o.toList := by
    rintro (_ | a) <;> simp [optEq, fs]
  have hd : ∀ o : Option (Drill F64), optEq Drill.eq o o = true ↔
      F64.nan ∉ o.toList.flatMap (fun d => [d.width, d.height, d.offsetX, d.offsetY]) := by
    rintro (_ | a) <;> simp [optEq, Drill.eq, fs, and_assoc]
  have hxo : ∀ o : Option (Xy F64), optEq Xy.eq o o = true ↔ F64.nan ∉ o.toList.flatMap xyNumbers := by
    rintro (_ | a) <;> simp [optEq, hx]
  cases e with
  | text t =>
    by_cases h : isDesignator t
    · have : (Elem.text t).eq (.text t) = true := by
        unfold isDesignator at h
        rcases h with h | h <;> simp [Elem.eq, FpText.eq, h]
      simp [this, compared, h]
    · simp only [compared, h, if_false, Elem.eq, FpText.eq]
      unfold isDesignator at h
      rw [not_or] at h
      simp [h, ha, hx, hl, fs, Effects.eq, Font.eq]
  | pad p =>
    simp only [compared, Elem.eq, Pad.eq]
    simp [ha, hx, hls, ho, hd, hxo, not_or]
  | poly p => simp [compared, Elem.eq, FpPoly.eq, hxs, fs, hl]
  | line p => simp [compared, Elem.eq, FpLine.eq, hx, fs, hl, and_assoc]
  | circle p => simp [compared, Elem.eq, FpCircle.eq, hx, fs, hl, and_assoc]
  | arc p => simp [compared, Elem.eq, FpArc.eq, hx, fs, hl, and_assoc]
  | model p => simp [compared, Elem.eq, Model.eq, Xyz.eq, fs, and_assoc]
  | at_ p => simp [compared, Elem.eq, ha]
  | _ => simp [compared, Elem.eq, fs, hl]

example : (Elem.line { FpLine.dflt with width := .nan } : Elem F64).eq
    (.line { FpLine.dflt with width := .nan }) = false := by
  have := (C84_self_equal (.line { FpLine.dflt with width := .nan })).not.2 (by simp [compared])
  simpa using this

/-! ## Bounding boxes -/

/-- An element whose box has only NaN corners, for example a line or a via between
NaN points, has no influence on the bounding box of a board with any other element
that has one. -/
theorem C84_box_ignores (pre post : List (Lay.Elem F64)) (e : Lay.Elem F64) (l : Lay.Layout F64)
    (he : e.bound = ⟨.nan, .nan, .nan, .nan, true⟩) (ho : ∃ x ∈ pre ++ post, x.bound.isBounded = true) :
    ({ l with elements := pre ++ e :: post } : Lay.Layout F64).bound =
      ({ l with elements := pre ++ post } : Lay.Layout F64).bound := by
  have up : ∀ b : Bound F64, b.isBounded = true → b.update e.bound = b := fun b hb => by
    rw [he]; obtain ⟨_, _, _, _, _⟩ := b; simp_all [Bound.update]
  have dn : ∀ b : Bound F64, b.isBounded = true → e.bound.update b = b := fun b hb => by
    rw [he]; obtain ⟨_, _, _, _, _⟩ := b; simp_all [Bound.update]
  have un : ∀ b c : Bound F64, c.isBounded = false → b.update c = b := fun b c h => by
    simp [Bound.update, h]
  have ub : ∀ b c : Bound F64, b.isBounded = true → (b.update c).isBounded = true := fun b c h => by
    unfold Bound.update; split <;> simp [h]
  have ub' : ∀ b c : Bound F64, c.isBounded = true → (b.update c).isBounded = true := fun b c h => by
    unfold Bound.update; simp only [h, if_true]; split <;> simp_all
  have first : ∀ b c : Bound F64, b.isBounded = false → c.isBounded = true → b.update c = c := fun b c hb hc => by
    obtain ⟨_, _, _, _, _⟩ := c
    simp_all [Bound.update]
  have fb : ∀ (xs : List (Lay.Elem F64)) (b : Bound F64), b.isBounded = true →
      (xs.foldl (fun b e => b.update e.bound) b).isBounded = true := fun xs => by
    induction xs with
    | nil => exact fun b h => h
    | cons x xs ih => exact fun b h => ih _ (ub _ _ h)
  -- nothing before the element: it is dropped as soon as another box comes
  have late : ∀ (xs : List (Lay.Elem F64)) (b : Bound F64), b.isBounded = false →
      (∃ x ∈ xs, x.bound.isBounded = true) →
      xs.foldl (fun b e => b.update e.bound) e.bound = xs.foldl (fun b e => b.update e.bound) b := fun xs => by
    induction xs with
    | nil => rintro b hb ⟨x, hx, -⟩; cases hx
    | cons x xs ih =>
      intro b hb hex
      simp only [List.foldl_cons]
      by_cases hx : x.bound.isBounded = true
      · rw [dn _ hx, first b _ hb hx]
      · rw [un _ _ (by simpa using hx), un _ _ (by simpa using hx)]
        refine ih b hb ?_
        obtain ⟨y, hy, hyb⟩ := hex
        rcases List.mem_cons.1 hy with rfl | hy
        · exact absurd hyb hx
        · exact ⟨y, hy, hyb⟩
  have none_ : ∀ (xs : List (Lay.Elem F64)) (b : Bound F64), (∀ x ∈ xs, x.bound.isBounded = false) →
      xs.foldl (fun b e => b.update e.bound) b = b := fun xs => by
    induction xs with
    | nil => exact fun b _ => rfl
    | cons x xs ih =>
      intro b h
      rw [List.forall_mem_cons] at h
      rw [List.foldl_cons, un _ _ h.1, ih _ h.2]
  have some_ : ∀ (xs : List (Lay.Elem F64)) (b : Bound F64), (∃ x ∈ xs, x.bound.isBounded = true) →
      (xs.foldl (fun b e => b.update e.bound) b).isBounded = true := fun xs => by
    induction xs with
    | nil => rintro b ⟨x, hx, -⟩; cases hx
    | cons x xs ih =>
      rintro b ⟨y, hy, hyb⟩
      rw [List.foldl_cons]
      rcases List.mem_cons.1 hy with rfl | hy
      · exact fb _ _ (ub' _ _ hyb)
      · exact ih _ ⟨y, hy, hyb⟩
  simp only [Lay.Layout.bound]
  congr 1
  rw [List.foldl_append, List.foldl_append, List.foldl_cons]
  by_cases hpre : ∃ x ∈ pre, x.bound.isBounded = true
  · rw [up _ (some_ pre _ hpre)]
  · have hno : ∀ x ∈ pre, x.bound.isBounded = false := fun x hx => by
      by_contra hh
      exact hpre ⟨x, hx, by simpa using hh⟩
    rw [none_ pre _ hno, first _ _ rfl (by rw [he])]
    refine late post _ rfl ?_
    obtain ⟨x, hx, hb⟩ := ho
    rcases List.mem_append.1 hx with hx | hx
    · exact absurd ⟨x, hx, hb⟩ hpre
    · exact ⟨x, hx, hb⟩

example (l : Lay.Layout F64) (e : Lay.Elem F64) (h : e.bound.isBounded = true) (g : Lay.GrLine F64)
    (h1 : g.start = ⟨.nan, .nan, .start⟩) (h2 : g.end_ = ⟨.nan, .nan, .end_⟩) :
    ({ l with elements := [.grLine g, e] } : Lay.Layout F64).bound =
      ({ l with elements := [e] } : Lay.Layout F64).bound :=
  C84_box_ignores [] [e] _ l (by simp [Lay.Elem.bound, Lay.twoPoint, h1, h2, Bound.new])
    ⟨e, by simp, h⟩

/-- A letter size 1 % too large is found, NaN is not. -/
example : differs (lit 101 2 : F64) (lit 1 0) = true ∧ differs (.nan : F64) (lit 1 0) = false :=
  ⟨by decide +kernel, (F64.differs_nan _).1⟩

example : (ofStr (str! "-NaN") : Option F64) = some .nan :=
  (C84_read_nan _).2 ⟨str! "NaN", true, Or.inl ⟨rfl, rfl⟩, by
    refine .cons (Or.inr rfl) (.cons (Or.inl rfl) (.cons (Or.inr rfl) .nil))⟩

example : (ofStr (str! "1e309") : Option F64) = some (.inf false) := by decide +kernel

end Verif

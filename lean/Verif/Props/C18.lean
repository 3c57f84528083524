import Verif.Props.C17
import Verif.Props.C51
import Verif.Props.C54
/-!
# C18: the symbol style check
-/

namespace Verif
open Lib Flt Spec

variable {F : Type} [Flt F]

/-- The name of a pin has an `n` followed by a `c`, in any case. -/
def Spec.NcName (s : Str) : Prop :=
  ∃ a x y b, s = a ++ x :: y :: b ∧ (x = 'n' ∨ x = 'N') ∧ (y = 'c' ∨ y = 'C')

/-- What the check reports about a pin, in order: rule, whether only a remark, message,
and when. -/
inductive Spec.PinFault (p : Pin) : CheckFixItem → Prop
  | x : ¬ (10 : Int) ∣ p.x → PinFault p ⟨4, 1, p.name ++ ':' :: p.number, str! "pin x not on 100mil grid", false⟩
  | y : ¬ (10 : Int) ∣ p.y → PinFault p ⟨4, 1, p.name ++ ':' :: p.number, str! "pin y not on 100mil grid", false⟩
  | step : ¬ (5 : Int) ∣ p.len →
      PinFault p ⟨4, 1, p.name ++ ':' :: p.number, str! "pin length not on 50mil grid", false⟩
  | short : p.len < 100 → PinFault p ⟨4, 1, p.name ++ ':' :: p.number, str! "pin length < 100mil", true⟩
  | long : 300 < p.len → PinFault p ⟨4, 1, p.name ++ ':' :: p.number, str! "pin length > 300mil", true⟩
  | notNc : Spec.NcName p.name → p.pinType ≠ .notConnected →
      PinFault p ⟨4, 7, p.name ++ ':' :: p.number, str! "Pin should be of type Not Connected", false⟩
  | ncVisible : p.pinType = .notConnected → p.pinVisible = true →
      PinFault p ⟨4, 7, p.name ++ ':' :: p.number, str! "Pin should be invisible", false⟩
  | hidden : p.pinType ≠ .notConnected → p.pinVisible = false →
      PinFault p ⟨4, 7, p.name ++ ':' :: p.number, str! "Pin should be visible", false⟩
  | numSize : p.numSize ≠ 50 →
      PinFault p ⟨4, 8, p.name ++ ':' :: p.number, str! "Pin Number should be 50mil", false⟩
  | nameSize : p.nameSize ≠ 50 →
      PinFault p ⟨4, 8, p.name ++ ':' :: p.number, str! "Pin Name should be 50mil", false⟩

/-- What the check reports about a rectangle. -/
inductive Spec.RectFault (r : Rectangle) : CheckFixItem → Prop
  | fill : r.fill ≠ .filledBackground → RectFault r ⟨4, 2, r.show, str! "Rectangle is not filled", false⟩
  | line : r.thickness ≠ 10 → RectFault r ⟨4, 2, r.show, str! "Rectangle is not using a 10mil line", false⟩

/-- A graphics symbol: reference starting with `#` and no pins. -/
def Spec.Graphics (s : Symbol F) : Prop := s.reference.head? = some '#' ∧ ∀ p, Draw.pin p ∉ s.draw

/-- A power symbol: reference `#PWR` and exactly one pin. -/
def Spec.Power (s : Symbol F) : Prop :=
  s.reference = str! "#PWR" ∧ ∃ p a b, s.draw = a ++ Draw.pin p :: b ∧ ∀ p', Draw.pin p' ∉ a ++ b

/-- What the check reports about a field of a symbol. -/
inductive Spec.FieldFault (s : Symbol F) (f : Lib.Field F) : CheckFixItem → Prop
  | size : f.dimension ≠ 50 → FieldFault s f ⟨4, 8, f.show, str! "field text is not 50mil", false⟩
  | refGraphics : f.i = 0 → Graphics s → f.visible = true →
      FieldFault s f ⟨4, 9, s.name, str! "reference field should be invisible for graphics", false⟩
  | refNormal : f.i = 0 → ¬ Graphics s → ¬ Power s → f.visible = false →
      FieldFault s f ⟨4, 9, s.name, str! "reference field should be visible for normal symbols", false⟩
  | valGraphics : f.i = 1 → Graphics s → f.visible = true →
      FieldFault s f ⟨4, 9, s.name, str! "value field should be invisible for graphics", false⟩
  | valPower : f.i = 1 → Power s → f.visible = true →
      FieldFault s f ⟨4, 9, s.name, str! "value field should be invisible for power", false⟩
  | valNormal : f.i = 1 → ¬ Graphics s → ¬ Power s → f.visible = false →
      FieldFault s f ⟨4, 9, s.name, str! "value field should be visible for normal symbols", false⟩
  | footprint : f.i = 2 → f.visible = true →
      FieldFault s f ⟨4, 9, s.name, str! "Footprint field should be invisible", false⟩
  | datasheet : f.i = 3 → f.visible = true →
      FieldFault s f ⟨4, 9, s.name, str! "Datasheet field should be invisible", false⟩

/-- What the check reports about a symbol. -/
inductive Spec.SymbolFault (s : Symbol F) : CheckFixItem → Prop
  | name (i : CheckFixItem) : (CheckFixData.item i) ∈
      charFindings (if s.name.head? = some '~' then s.name.drop 1 else s.name) → SymbolFault s i
  | field (f : Lib.Field F) (i : CheckFixItem) : f ∈ s.fields → FieldFault s f i → SymbolFault s i
  | pin (p : Pin) (i : CheckFixItem) : ¬ Graphics s → ¬ Power s → Draw.pin p ∈ s.draw → PinFault p i → SymbolFault s i
  | rect (r : Rectangle) (i : CheckFixItem) : ¬ Graphics s → ¬ Power s → Draw.rectangle r ∈ s.draw → RectFault r i →
      SymbolFault s i

/-! ## Lemmas -/

theorem Lib.containsStr_iff (s pat : Str) : containsStr s pat = true ↔ ∃ a b, s = a ++ pat ++ b := by
  induction s with
  | nil =>
    rw [containsStr]
    constructor
    · intro h
      have : pat = [] := by simpa using h
      exact ⟨[], [], by simp [this]⟩
    · rintro ⟨a, b, h⟩
      have := congrArg List.length h
      simp only [List.length_append, List.length_nil] at this
      have : pat = [] := List.length_eq_zero_iff.1 (by omega)
      simp [this]
  | cons c s ih =>
    rw [containsStr, Bool.or_eq_true, ih]
    constructor
    · rintro (h | ⟨a, b, h⟩)
      · obtain ⟨b, hb⟩ := List.isPrefixOf_iff_prefix.1 h
        exact ⟨[], b, by simp [hb]⟩
      · exact ⟨c :: a, b, by simp [h]⟩
    · rintro ⟨a, b, h⟩
      cases a with
      | nil => exact Or.inl (List.isPrefixOf_iff_prefix.2 ⟨b, by simpa using h.symm⟩)
      | cons d a =>
        simp only [List.cons_append, List.cons.injEq] at h
        exact Or.inr ⟨a, b, by simpa using h.2⟩

/-- Lower-casing gives an `n` (or any other small letter) from its two cases only. -/
theorem Lib.lower_eq (c d : Char) (hd : d ∈ [('n', 'N'), ('c', 'C')].map Prod.fst) :
    (if 'A' ≤ c ∧ c ≤ 'Z' then Char.ofNat (c.toNat + 32) else c) = d ↔ c = d ∨ c = Char.ofNat (d.toNat - 32) := by
  by_cases h : 'A' ≤ c ∧ c ≤ 'Z'
  · rw [if_pos h]
    have hlt : c.toNat < 91 := by
      have := h.2
      simp only [Char.le_def, UInt32.le_iff_toNat_le] at this
      have hc : c.toNat = c.val.toNat := rfl
      have e2 : ('Z' : Char).val.toNat = 90 := rfl
      omega
    have key : ∀ n, n < 91 → 'A' ≤ Char.ofNat n ∧ Char.ofNat n ≤ 'Z' → ∀ d ∈ ['n', 'c'],
        (Char.ofNat ((Char.ofNat n).toNat + 32) = d ↔ Char.ofNat n = d ∨ Char.ofNat n = Char.ofNat (d.toNat - 32)) := by
      decide +kernel
    have := key c.toNat hlt
    rw [Char.ofNat_toNat] at this
    exact this h d (by simpa using hd)
  · rw [if_neg h]
    constructor
    · exact Or.inl
    · rintro (e | e)
      · exact e
      · exfalso
        apply h
        rw [e]
        have : ∀ d ∈ ['n', 'c'], 'A' ≤ Char.ofNat (d.toNat - 32) ∧ Char.ofNat (d.toNat - 32) ≤ 'Z' := by decide
        exact this d (by simpa using hd)

theorem Lib.ncName_iff (s : Str) : containsStr (lowerAscii s) (str! "nc") = true ↔ NcName s := by
  rw [containsStr_iff]
  constructor
  · rintro ⟨a, b, h⟩
    unfold lowerAscii at h
    rw [List.append_assoc] at h
    obtain ⟨a', r, hs, ha, hr⟩ := List.map_eq_append_iff.1 h
    simp only [List.cons_append, List.nil_append] at hr
    obtain ⟨x, r, rfl, hx, hr⟩ := List.map_eq_cons_iff.1 hr
    obtain ⟨y, r, rfl, hy, hr⟩ := List.map_eq_cons_iff.1 hr
    exact ⟨a', x, y, r, hs, (lower_eq x 'n' (by decide)).1 hx, (lower_eq y 'c' (by decide)).1 hy⟩
  · rintro ⟨a, x, y, b, rfl, hx, hy⟩
    refine ⟨lowerAscii a, lowerAscii b, ?_⟩
    have e1 := (lower_eq x 'n' (by decide)).2 hx
    have e2 := (lower_eq y 'c' (by decide)).2 hy
    unfold lowerAscii
    rw [List.map_append, List.map_cons, List.map_cons, e1, e2]
    simp

theorem Lib.tmod_dvd (x k : Int) : x.tmod k ≠ 0 ↔ ¬ k ∣ x := by
  rw [Int.dvd_iff_tmod_eq_zero]

/-- The pins among the drawings, as in `Symbol.pins`. -/
def Lib.pinOf : Draw → Option Pin := fun d => match d with | .pin p => some p | _ => none

theorem Lib.pins_nil (x : List Draw) : x.filterMap pinOf = [] ↔ ∀ p, Draw.pin p ∉ x := by
  rw [List.eq_nil_iff_forall_not_mem]
  refine forall_congr' fun p => not_congr ?_
  rw [List.mem_filterMap]
  constructor
  · rintro ⟨d, hd, e⟩
    cases d <;> cases e
    exact hd
  · intro h
    exact ⟨_, h, rfl⟩

theorem Lib.isGraphics_iff (s : Symbol F) : s.isGraphics = true ↔ Graphics s := by
  unfold Symbol.isGraphics Graphics Symbol.pins
  rw [Bool.and_eq_true]
  refine and_congr ?_ ?_
  · cases s.reference with
    | nil => simp [startsWith]
    | cons c r => simp [startsWith]; exact eq_comm
  · exact List.isEmpty_iff.trans (pins_nil s.draw)

theorem Lib.isPower_iff (s : Symbol F) : s.isPowerSym = true ↔ Power s := by
  unfold Symbol.isPowerSym Power Symbol.pins
  rw [Bool.and_eq_true]
  refine and_congr (by simp) ?_
  generalize s.draw = d
  rw [beq_iff_eq]
  show (d.filterMap pinOf).length = 1 ↔ _
  have skip : ∀ (a : Draw) (d : List Draw), (∀ p, a ≠ .pin p) →
      ((d.filterMap pinOf).length = 1 ↔ ∃ p a b, d = a ++ Draw.pin p :: b ∧ ∀ p', Draw.pin p' ∉ a ++ b) →
      ((d.filterMap pinOf).length = 1 ↔ ∃ p x b, a :: d = x ++ Draw.pin p :: b ∧ ∀ p', Draw.pin p' ∉ x ++ b) := by
    intro a d ha ih
    rw [ih]
    constructor
    · rintro ⟨q, x, b, e, hn⟩
      refine ⟨q, a :: x, b, by rw [e]; rfl, ?_⟩
      intro p' hp'
      rcases List.mem_cons.1 hp' with e | hp'
      · exact ha p' e.symm
      · exact hn p' hp'
    · rintro ⟨q, x, b, e, hn⟩
      cases x with
      | nil => cases e; exact absurd rfl (ha q)
      | cons c x => cases e; exact ⟨q, x, b, rfl, fun p' hp' => hn p' (List.mem_cons_of_mem _ hp')⟩
  induction d with
  | nil => simp
  | cons a d ih =>
    cases a with
    | pin p =>
      rw [List.filterMap_cons]
      simp only [pinOf, List.length_cons]
      constructor
      · intro h
        refine ⟨p, [], d, rfl, (pins_nil d).1 (List.length_eq_zero_iff.1 ?_)⟩
        exact Nat.succ.inj h
      · rintro ⟨q, a, b, e, hn⟩
        cases a with
        | nil =>
          cases e
          have := (pins_nil d).2 (by simpa using hn)
          exact congrArg (fun x => List.length x + 1) this
        | cons c a =>
          cases e
          exact absurd (List.mem_append_left _ (List.mem_cons_self ..)) (hn p)
    | other x => exact skip _ d (by intro p h; cases h) ih
    | rectangle x => exact skip _ d (by intro p h; cases h) ih

theorem Lib.mem_one {α : Type} (p : Prop) [Decidable p] (a x : α) : (x ∈ if p then [a] else []) ↔ p ∧ x = a := by
  by_cases h : p <;> simp [h]

/-! ## Theorems -/

/-- A finding about a pin is reported exactly in the circumstances listed. -/
theorem C18_pin_findings (p : Pin) (d : CheckFixData) :
    d ∈ checkPin p ↔ ∃ i, d = .item i ∧ PinFault p i := by
  have hn : p.name ++ str! ":" ++ p.number = p.name ++ ':' :: p.number := by simp
  unfold checkPin
  simp only [hn, List.mem_append, mem_one, tmod_dvd, CheckFixData.new, CheckFixData.newInfo]
  constructor
  · rintro ((((((((h | h) | h) | h) | h) | h) | h) | h) | h)
    · exact ⟨_, h.2, .x h.1⟩
    · exact ⟨_, h.2, .y h.1⟩
    · exact ⟨_, h.2, .step h.1⟩
    · exact ⟨_, h.2, .short h.1⟩
    · exact ⟨_, h.2, .long h.1⟩
    · split at h
      · rename_i hc
        rw [mem_one] at h
        exact ⟨_, h.2, .notNc ((ncName_iff _).1 hc) h.1⟩
      · cases h
    · split at h
      · rename_i hc
        rw [mem_one] at h
        exact ⟨_, h.2, .ncVisible hc h.1⟩
      · rename_i hc
        rw [mem_one] at h
        exact ⟨_, h.2, .hidden hc (by simpa using h.1)⟩
    · exact ⟨_, h.2, .numSize h.1⟩
    · exact ⟨_, h.2, .nameSize h.1⟩
  · rintro ⟨i, rfl, h⟩
    cases h with
    | x h => exact Or.inl <| Or.inl <| Or.inl <| Or.inl <| Or.inl <| Or.inl <| Or.inl <| Or.inl ⟨h, rfl⟩
    | y h => exact Or.inl <| Or.inl <| Or.inl <| Or.inl <| Or.inl <| Or.inl <| Or.inl <| Or.inr ⟨h, rfl⟩
    | step h => exact Or.inl <| Or.inl <| Or.inl <| Or.inl <| Or.inl <| Or.inl <| Or.inr ⟨h, rfl⟩
    | short h => exact Or.inl <| Or.inl <| Or.inl <| Or.inl <| Or.inl <| Or.inr ⟨h, rfl⟩
    | long h => exact Or.inl <| Or.inl <| Or.inl <| Or.inl <| Or.inr ⟨h, rfl⟩
    | notNc h h' =>
      refine Or.inl <| Or.inl <| Or.inl <| Or.inr ?_
      rw [if_pos ((ncName_iff _).2 h), if_pos h']
      exact List.mem_singleton.2 rfl
    | ncVisible h h' =>
      refine Or.inl <| Or.inl <| Or.inr ?_
      rw [if_pos h, if_pos h']
      exact List.mem_singleton.2 rfl
    | hidden h h' =>
      refine Or.inl <| Or.inl <| Or.inr ?_
      rw [if_neg h, if_pos (by simpa using h')]
      exact List.mem_singleton.2 rfl
    | numSize h => exact Or.inl <| Or.inr ⟨h, rfl⟩
    | nameSize h => exact Or.inr ⟨h, rfl⟩

/-- A finding about a rectangle is reported exactly in the circumstances listed. -/
theorem C18_rectangle_findings (r : Rectangle) (d : CheckFixData) :
    d ∈ checkRectangle r ↔ ∃ i, d = .item i ∧ RectFault r i := by
  unfold checkRectangle
  simp only [List.mem_append, mem_one, CheckFixData.new]
  constructor
  · rintro (h | h)
    · exact ⟨_, h.2, .fill h.1⟩
    · exact ⟨_, h.2, .line h.1⟩
  · rintro ⟨i, rfl, h⟩
    cases h with
    | fill h => exact Or.inl ⟨h, rfl⟩
    | line h => exact Or.inr ⟨h, rfl⟩

omit [Flt F] in
theorem Spec.not_graphics_power (s : Symbol F) (g : Graphics s) (p : Power s) : False := by
  obtain ⟨_, q, a, b, e, _⟩ := p
  exact g.2 q (by rw [e]; simp)

/-- A finding about a field is reported exactly in the circumstances listed. -/
theorem C18_field_findings (s : Symbol F) (f : Lib.Field F) (d : CheckFixData) :
    d ∈ checkField s f ↔ ∃ i, d = .item i ∧ FieldFault s f i := by
  unfold checkField
  generalize hg : s.isGraphics = g
  generalize hp : s.isPowerSym = w
  have hg' : g = true ↔ Graphics s := by rw [← hg]; exact isGraphics_iff s
  have hp' : w = true ↔ Power s := by rw [← hp]; exact isPower_iff s
  have hx := not_graphics_power s
  clear hg hp
  simp only [List.mem_append, mem_one, CheckFixData.new]
  have e0 : ∀ b : Bool, ((!b) = true) ↔ b = false := by decide
  constructor
  · rintro (h | h)
    · exact ⟨_, h.2, .size h.1⟩
    · split at h
      · rename_i hi
        split at h
        · rename_i hh
          rw [mem_one] at h
          exact ⟨_, h.2, .refGraphics hi (hg'.1 hh) h.1⟩
        · rename_i hh
          rw [mem_one, Bool.and_eq_true, e0, e0] at h
          exact ⟨_, h.2, .refNormal hi (mt hg'.2 hh) (fun x => by rw [hp'.2 x] at h; simp at h) h.1.1⟩
      · split at h
        · rename_i hi
          split at h
          · rename_i hh
            rw [mem_one] at h
            exact ⟨_, h.2, .valGraphics hi (hg'.1 hh) h.1⟩
          · rename_i hh
            split at h
            · rename_i hw
              rw [mem_one] at h
              exact ⟨_, h.2, .valPower hi (hp'.1 hw) h.1⟩
            · rename_i hw
              rw [mem_one, e0] at h
              exact ⟨_, h.2, .valNormal hi (mt hg'.2 hh) (mt hp'.2 hw) h.1⟩
        · split at h
          · rename_i hi
            rw [mem_one] at h
            exact ⟨_, h.2, .footprint hi h.1⟩
          · split at h
            · rename_i hi
              rw [mem_one] at h
              exact ⟨_, h.2, .datasheet hi h.1⟩
            · cases h
  · rintro ⟨i, rfl, h⟩
    cases h with
    | size h => exact Or.inl ⟨h, rfl⟩
    | refGraphics hi h h' =>
      refine Or.inr ?_
      rw [if_pos hi, if_pos (hg'.2 h), if_pos h']
      exact List.mem_singleton.2 rfl
    | refNormal hi h h' h'' =>
      refine Or.inr ?_
      have hw : w = false := by simpa using mt hp'.1 h'
      rw [if_pos hi, if_neg (mt hg'.1 h), if_pos (by simp [h'', hw])]
      exact List.mem_singleton.2 rfl
    | valGraphics hi h h' =>
      refine Or.inr ?_
      rw [if_neg (by omega), if_pos hi, if_pos (hg'.2 h), if_pos h']
      exact List.mem_singleton.2 rfl
    | valPower hi h h' =>
      refine Or.inr ?_
      rw [if_neg (by omega), if_pos hi, if_neg (fun x => hx (hg'.1 x) h), if_pos (hp'.2 h), if_pos h']
      exact List.mem_singleton.2 rfl
    | valNormal hi h h' h'' =>
      refine Or.inr ?_
      rw [if_neg (by omega), if_pos hi, if_neg (mt hg'.1 h), if_neg (mt hp'.1 h'), if_pos (by simp [h''])]
      exact List.mem_singleton.2 rfl
    | footprint hi h =>
      refine Or.inr ?_
      rw [if_neg (by omega), if_neg (by omega), if_pos hi, if_pos h]
      exact List.mem_singleton.2 rfl
    | datasheet hi h =>
      refine Or.inr ?_
      rw [if_neg (by omega), if_neg (by omega), if_neg (by omega), if_pos hi, if_pos h]
      exact List.mem_singleton.2 rfl

theorem Lib.leavesAll_flatten (v : List (List CheckFixData)) (n : Nat) :
    leavesAll n v.flatten = v.flatMap (leavesAll n) := by
  induction v with
  | nil => rfl
  | cons a v ih => rw [List.flatten_cons, leavesAll_append, ih, List.flatMap_cons]

theorem Lib.pushMore_leaves (f : List CheckFixData) :
    (leavesAll 0 (pushMore f)).map Prod.snd = (leavesAll 0 f).map Prod.snd := by
  unfold pushMore
  split
  · rename_i h
    rw [List.isEmpty_iff.1 h]
  · rw [leavesAll, leavesAll, List.append_nil, C54_flatter, leaves, leavesAll_items 1 0]

theorem Lib.mem_leaves_items (i : CheckFixItem) (f : List CheckFixData) (h : ∀ d ∈ f, ∃ j, d = .item j) :
    i ∈ (leavesAll 0 f).map Prod.snd ↔ CheckFixData.item i ∈ f := by
  induction f with
  | nil => simp [leavesAll]
  | cons d f ih =>
    rw [List.forall_mem_cons] at h
    obtain ⟨⟨j, rfl⟩, h⟩ := h
    rw [leavesAll, List.map_append, List.mem_append, ih h, leaves]
    simp

theorem Lib.mem_pushMore (i : CheckFixItem) (f : List CheckFixData) (h : ∀ d ∈ f, ∃ j, d = .item j) :
    i ∈ (leavesAll 0 (pushMore f)).map Prod.snd ↔ CheckFixData.item i ∈ f := by
  rw [pushMore_leaves, mem_leaves_items i f h]

theorem Lib.mem_flat {α : Type} (i : CheckFixItem) (x : List α) (g : α → List CheckFixData)
    (h : ∀ a ∈ x, ∀ d ∈ g a, ∃ j, d = .item j) :
    i ∈ (leavesAll 0 ((x.map fun a => pushMore (g a)).flatten)).map Prod.snd ↔ ∃ a ∈ x, CheckFixData.item i ∈ g a := by
  induction x with
  | nil => simp [leavesAll]
  | cons a x ih =>
    rw [List.forall_mem_cons] at h
    rw [List.map_cons, List.flatten_cons, leavesAll_append, List.map_append, List.mem_append, mem_pushMore i _ h.1,
      ih h.2]
    simp

theorem Lib.checkDraw_items (d : Draw) (x : CheckFixData) (h : x ∈ checkDraw d) : ∃ j, x = .item j := by
  cases d with
  | pin p => obtain ⟨i, h, _⟩ := (C18_pin_findings p x).1 h; exact ⟨i, h⟩
  | rectangle r => obtain ⟨i, h, _⟩ := (C18_rectangle_findings r x).1 h; exact ⟨i, h⟩
  | other _ => cases h

/-- A finding occurs in the result of checking a symbol, at whatever depth, exactly in the circumstances listed. -/
theorem C18_symbol_findings (s : Symbol F) (i : CheckFixItem) :
    i ∈ (leavesAll 0 s.check).map Prod.snd ↔ SymbolFault s i := by
  have hnm : (if startsWith s.name (str! "~") then s.name.drop 1 else s.name) =
      (if s.name.head? = some '~' then s.name.drop 1 else s.name) := by
    cases s.name with
    | nil => rfl
    | cons c r => by_cases hc : c = '~' <;> simp [startsWith, hc]; exact fun h => absurd h.symm hc
  unfold Symbol.check
  simp only [hnm, leavesAll_append, List.map_append, List.mem_append]
  rw [mem_pushMore i _ (by
      intro d hd
      rw [C51_findings, charFindings] at hd
      obtain ⟨y, _, e⟩ := List.mem_map.1 hd
      exact ⟨_, e.symm⟩), C51_findings,
    mem_flat i s.fields (fun f => checkField s f) (by
      intro f _ d hd
      obtain ⟨j, e, _⟩ := (C18_field_findings s f d).1 hd
      exact ⟨j, e⟩)]
  constructor
  · rintro ((h | ⟨f, hf, h⟩) | h)
    · exact .name i h
    · obtain ⟨j, e, h⟩ := (C18_field_findings s f _).1 h
      cases e
      exact .field f i hf h
    · split at h
      · rename_i hc
        rw [Bool.not_eq_true', Bool.or_eq_false_iff] at hc
        have hg : ¬ Graphics s := fun x => by rw [(isGraphics_iff s).2 x] at hc; simp at hc
        have hp : ¬ Power s := fun x => by rw [(isPower_iff s).2 x] at hc; simp at hc
        obtain ⟨d, hd, h⟩ := (mem_flat i s.draw checkDraw fun d _ => checkDraw_items d).1 h
        cases d with
        | pin p =>
          obtain ⟨j, e, h⟩ := (C18_pin_findings p _).1 h
          cases e
          exact .pin p i hg hp hd h
        | rectangle r =>
          obtain ⟨j, e, h⟩ := (C18_rectangle_findings r _).1 h
          cases e
          exact .rect r i hg hp hd h
        | other _ => cases h
      · simp [leavesAll] at h
  · have hc : ¬ Graphics s → ¬ Power s → (!(s.isPowerSym || s.isGraphics)) = true := by
      intro hg hp
      rw [Bool.not_eq_true', Bool.or_eq_false_iff]
      exact ⟨by simpa using mt (isPower_iff s).1 hp, by simpa using mt (isGraphics_iff s).1 hg⟩
    intro h
    cases h with
    | name _ h => exact Or.inl (Or.inl h)
    | field f _ hf h => exact Or.inl (Or.inr ⟨f, hf, (C18_field_findings s f _).2 ⟨i, rfl, h⟩⟩)
    | pin p _ hg hp hd h =>
      refine Or.inr ?_
      rw [if_pos (hc hg hp), mem_flat i s.draw checkDraw fun d _ => checkDraw_items d]
      exact ⟨_, hd, (C18_pin_findings p _).2 ⟨i, rfl, h⟩⟩
    | rect r _ hg hp hd h =>
      refine Or.inr ?_
      rw [if_pos (hc hg hp), mem_flat i s.draw checkDraw fun d _ => checkDraw_items d]
      exact ⟨_, hd, (C18_rectangle_findings r _).2 ⟨i, rfl, h⟩⟩

theorem Lib.pushMore_nil (f : List CheckFixData) : pushMore f = [] ↔ f = [] := by
  unfold pushMore
  cases f <;> simp

/-- A symbol gets an empty report exactly if it breaks no rule. -/
theorem C18_clean_iff (s : Symbol F) : s.check = [] ↔ ∀ i, ¬ SymbolFault s i := by
  constructor
  · intro h i hi
    have := (C18_symbol_findings s i).2 hi
    rw [h] at this
    simp [leavesAll] at this
  · intro h
    have e1 : allowed17Items (if startsWith s.name (str! "~") then s.name.drop 1 else s.name) = [] := by
      rw [C51_findings]
      cases hx : charFindings (if startsWith s.name (str! "~") then s.name.drop 1 else s.name) with
      | nil => rfl
      | cons d v =>
        have hd : d ∈ charFindings (if startsWith s.name (str! "~") then s.name.drop 1 else s.name) := by
          rw [hx]; exact List.mem_cons_self ..
        obtain ⟨j, rfl⟩ : ∃ j, d = .item j := by
          rw [charFindings] at hd
          obtain ⟨y, _, e⟩ := List.mem_map.1 hd
          exact ⟨_, e.symm⟩
        refine absurd (SymbolFault.name j ?_) (h j)
        have hnm : (if startsWith s.name (str! "~") then s.name.drop 1 else s.name) =
            (if s.name.head? = some '~' then s.name.drop 1 else s.name) := by
          cases s.name with
          | nil => rfl
          | cons c r => by_cases hc : c = '~' <;> simp [startsWith, hc]; exact fun h => absurd h.symm hc
        rw [← hnm]
        exact hd
    have e2 : ∀ f ∈ s.fields, checkField s f = [] := by
      intro f hf
      cases hx : checkField s f with
      | nil => rfl
      | cons d v =>
        obtain ⟨i, e, hi⟩ := (C18_field_findings s f d).1 (by rw [hx]; exact List.mem_cons_self ..)
        exact absurd (SymbolFault.field f i hf hi) (h i)
    have e3 : (!(s.isPowerSym || s.isGraphics)) = true → ∀ d ∈ s.draw, checkDraw d = [] := by
      intro hc d hd
      rw [Bool.not_eq_true', Bool.or_eq_false_iff] at hc
      have hg : ¬ Graphics s := fun x => by rw [(isGraphics_iff s).2 x] at hc; simp at hc
      have hp : ¬ Power s := fun x => by rw [(isPower_iff s).2 x] at hc; simp at hc
      cases hx : checkDraw d with
      | nil => rfl
      | cons y v =>
        have hy : y ∈ checkDraw d := by rw [hx]; exact List.mem_cons_self ..
        cases d with
        | pin p =>
          obtain ⟨i, e, hi⟩ := (C18_pin_findings p y).1 hy
          exact absurd (SymbolFault.pin p i hg hp hd hi) (h i)
        | rectangle r =>
          obtain ⟨i, e, hi⟩ := (C18_rectangle_findings r y).1 hy
          exact absurd (SymbolFault.rect r i hg hp hd hi) (h i)
        | other _ => cases hy
    unfold Symbol.check
    simp only [e1, pushMore, List.isEmpty_nil, if_true, List.nil_append]
    rw [List.append_eq_nil_iff, List.flatten_eq_nil_iff]
    constructor
    · intro l hl
      obtain ⟨f, hf, e⟩ := List.mem_map.1 hl
      rw [← e, e2 f hf]; rfl
    · split
      · rename_i hc
        rw [List.flatten_eq_nil_iff]
        intro l hl
        obtain ⟨d, hd, e⟩ := List.mem_map.1 hl
        rw [← e, e3 hc d hd]; rfl
      · rfl

/-- A good pin. -/
def Spec.goodPin : Pin :=
  { name := str! "VCC", number := str! "1", x := -200, y := 100, len := 150, orientation := .left, numSize := 50,
    nameSize := 50, unit := 1, convert := 1, pinType := .powerInput, pinVisible := true, pinShape := .line }

example : checkPin goodPin = [] := by decide +kernel
example : (checkPin { goodPin with x := 5, len := 301, name := str! "aNc" }).length = 4 := by decide +kernel

/-- The grid the code checks is ten times finer than the documented 100 mil grid: pins off the
100 mil grid get through without any finding. -/
theorem C18_grid_not_100 (p : Pin) (h : checkPin p = []) (k : Int) : checkPin { p with x := 10 * k } = [] := by
  have hp : ∀ d, d ∉ checkPin p := by rw [h]; simp
  cases hc : checkPin { p with x := 10 * k } with
  | nil => rfl
  | cons d v =>
    obtain ⟨i, _, hi⟩ := (C18_pin_findings { p with x := 10 * k } d).1 (by rw [hc]; exact List.mem_cons_self ..)
    have : PinFault p i := by
      cases hi with
      | x h => exact absurd ⟨k, rfl⟩ h
      | y h => exact .y h
      | step h => exact .step h
      | short h => exact .short h
      | long h => exact .long h
      | notNc h h' => exact .notNc h h'
      | ncVisible h h' => exact .ncVisible h h'
      | hidden h h' => exact .hidden h h'
      | numSize h => exact .numSize h
      | nameSize h => exact .nameSize h
    exact absurd ((C18_pin_findings p _).2 ⟨i, rfl, this⟩) (hp _)

/-- Every reported pin is off the documented grid; the converse is missing. -/
theorem C18_grid_sound_partial (p : Pin)
    (h : CheckFixData.item ⟨4, 1, p.name ++ ':' :: p.number, str! "pin x not on 100mil grid", false⟩ ∈ checkPin p) :
    ¬ (100 : Int) ∣ p.x := by
  intro hd
  obtain ⟨i, e, hi⟩ := (C18_pin_findings p _).1 h
  cases e
  have : ¬ (10 : Int) ∣ p.x := by
    generalize hm : str! "pin x not on 100mil grid" = m at hi
    cases hi <;> first | assumption | (exact absurd hm (by decide))
  omega

example : CheckFixData.item ⟨4, 1, str! "VCC:1", str! "pin x not on 100mil grid", false⟩ ∈
    checkPin { goodPin with x := 33 } := by
  rw [C18_pin_findings]; exact ⟨_, rfl, .x (by decide)⟩

end Verif

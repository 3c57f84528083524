import Verif.Spec.SymbolEdits
import Verif.Props.C17
import Verif.Props.C86
/-!
# C87: symbol libraries survive editing sessions

Whole sessions: building a library from nothing or changing one that was read, with
`Symbol::new`, `set_name` and the public fields, then saving and reading again.
-/

namespace Verif
open Spec Flt Lib

variable {F : Type} [Flt F]

/-- What is missing of an unfinished symbol to fit the file format: two fields. -/
theorem Lib.fits_iff_unfinished (l : SymbolLib F) : FitsLib l ∧ ¬ HasBold l ↔
    UnfinishedLib l ∧ ∀ s ∈ l.symbols, 2 ≤ s.fields.length := by
  constructor
  · rintro ⟨h1, h2⟩
    refine ⟨fun s hs => ?_, fun s hs => (h1 s hs).1.2.2.2.1⟩
    obtain ⟨⟨a, b, c, d, e, f, g⟩, k⟩ := h1 s hs
    exact ⟨a, b, c, fun x hx => ⟨e x hx, by
      cases hb : x.bold with
      | false => rfl
      | true => exact absurd ⟨s, hs, x, hx, hb⟩ h2⟩, f, g, k⟩
  · rintro ⟨h1, h2⟩
    refine ⟨fun s hs => ?_, ?_⟩
    · obtain ⟨a, b, c, e, f, g, k⟩ := h1 s hs
      exact ⟨⟨a, b, c, h2 s hs, fun x hx => (e x hx).1, f, g⟩, k⟩
    · rintro ⟨s, hs, x, hx, hb⟩
      rw [((h1 s hs).2.2.2.1 x hx).2] at hb
      cases hb

/-- One change keeps a symbol unfinished or finished. -/
theorem Lib.symEdit_keeps (e : SymEdit F) (he : e.Fits) (s s' : Symbol F) (hs : Unfinished s)
    (h : e.run s = .ok s') : Unfinished s' := by
  obtain ⟨a, b, c, d, f, g, k1, k2⟩ := hs
  cases e with
  | setName n =>
    change s.setName n = .ok s' at h
    match hn : s.name, hf : s.fields with
    | [], _ => simp [Symbol.setName, Sch.charAt, hn] at h
    | ch :: cs, [] => simp [Symbol.setName, Sch.charAt, hn, hf] at h
    | ch :: cs, [_] => simp [Symbol.setName, Sch.charAt, hn, hf] at h
    | ch :: cs, f0 :: f1 :: fs =>
      simp only [Symbol.setName, Sch.charAt, hn, hf, List.getElem?_cons_zero, Res.bind_ok] at h
      cases h
      have hw : Word n := he
      refine ⟨?_, b, c, ?_, f, g, k1, k2⟩
      · dsimp only
        split
        · exact ⟨List.cons_ne_nil _ _, ⟨by simpa using hw.2.1.1, by simpa using hw.2.1.2⟩, by simpa using hw.2.2⟩
        · exact hw
      · rw [hf] at d
        simp only [List.forall_mem_cons] at d ⊢
        exact ⟨d.1, ⟨⟨d.2.1.1.1, d.2.1.1.2.1, d.2.1.1.2.2.1, hw.2.1, d.2.1.1.2.2.2.2⟩, d.2.1.2⟩, d.2.2⟩
  | setReference r => cases h; exact ⟨a, he, c, d, f, g, k1, k2⟩
  | setTextOffset x => cases h; exact ⟨a, b, c, d, f, g, k1, k2⟩
  | setFlags _ _ _ _ => cases h; exact ⟨a, b, c, d, f, g, k1, k2⟩
  | setUnitCount n => cases h; exact ⟨a, b, he, d, f, g, k1, k2⟩
  | addField x =>
    cases h
    refine ⟨a, b, c, ?_, f, g, k1, k2⟩
    intro y hy
    rcases List.mem_append.1 hy with hy | hy
    · exact d y hy
    · rw [List.mem_singleton.1 hy]; exact he
  | addAlias x =>
    cases h
    refine ⟨a, b, c, d, ?_, g, ?_, k2⟩
    · intro y hy
      rcases List.mem_append.1 hy with hy | hy
      · exact f y hy
      · rw [List.mem_singleton.1 hy]; exact he.1
    · intro y hy
      rw [List.getLast?_append] at hy
      simp at hy
      rw [← hy]
      exact he.2
  | addDraw x =>
    cases h
    refine ⟨a, b, c, d, f, ?_, k1, ?_⟩
    · intro y hy
      rcases List.mem_append.1 hy with hy | hy
      · exact g y hy
      · rw [List.mem_singleton.1 hy]; exact he.1
    · intro y hy
      rcases List.mem_append.1 hy with hy | hy
      · exact k2 y hy
      · rw [List.mem_singleton.1 hy]; exact he.2

/-- Changing the symbol with a number: it exists, and everything before and after it stays as it
was. -/
theorem Lib.editAt_iff (f : Symbol F → Res (Symbol F)) (i : Nat) (l r : List (Symbol F)) :
    editAt f i l = .ok r ↔ ∃ a s s' b, l = a ++ s :: b ∧ a.length = i ∧ f s = .ok s' ∧ r = a ++ s' :: b := by
  induction l generalizing i r with
  | nil => simp [editAt]
  | cons x l ih =>
    cases i with
    | zero =>
      rw [editAt, Res.bind_eq_ok]
      constructor
      · rintro ⟨s', h1, h2⟩
        cases h2
        exact ⟨[], x, s', l, rfl, rfl, h1, rfl⟩
      · rintro ⟨a, s, s', b, h1, h2, h3, h4⟩
        rw [List.length_eq_zero_iff] at h2
        subst h2
        obtain ⟨rfl, rfl⟩ := List.cons.inj h1
        exact ⟨s', h3, by rw [h4]; rfl⟩
    | succ i =>
      rw [editAt, Res.bind_eq_ok]
      constructor
      · rintro ⟨ss, h1, h2⟩
        cases h2
        obtain ⟨a, s, s', b, rfl, rfl, h3, rfl⟩ := (ih i ss).1 h1
        exact ⟨x :: a, s, s', b, rfl, rfl, h3, rfl⟩
      · rintro ⟨a, s, s', b, h1, h2, h3, h4⟩
        match a, h1, h2, h4 with
        | y :: a, h1, h2, h4 =>
          obtain ⟨rfl, rfl⟩ := List.cons.inj h1
          exact ⟨a ++ s' :: b, (ih i _).2 ⟨a, s, s', b, rfl, by simpa using h2, h3, rfl⟩, by rw [h4]; rfl⟩

theorem Lib.libEdit_keeps (e : LibEdit F) (he : e.Fits) (l r : SymbolLib F) (hl : UnfinishedLib l)
    (h : e.run l = .ok r) : UnfinishedLib r := by
  cases e with
  | edit i e =>
    obtain ⟨ss, h1, h2⟩ := Res.bind_eq_ok.1 h
    cases h2
    obtain ⟨a, s, s', b, h3, _, h4, rfl⟩ := (Lib.editAt_iff _ _ _ _).1 h1
    have hl' : ∀ x ∈ a ++ s :: b, Unfinished x := by rw [← h3]; exact hl
    intro x hx
    rcases List.mem_append.1 hx with hx | hx
    · exact hl' x (List.mem_append_left _ hx)
    · rcases List.mem_cons.1 hx with rfl | hx
      · exact Lib.symEdit_keeps e he s _ (hl' s (by simp)) h4
      · exact hl' x (List.mem_append_right _ (List.mem_cons_of_mem _ hx))
  | addNew n r =>
    cases h
    intro x hx
    rcases List.mem_append.1 hx with hx | hx
    · exact hl x hx
    · rw [List.mem_singleton.1 hx]
      exact ⟨he.1, he.2, (by decide : inI64 1), by simp [Symbol.new], by simp [Symbol.new], by simp [Symbol.new],
        by simp [Symbol.new], by simp [Symbol.new]⟩
  | add s =>
    cases h
    intro x hx
    rcases List.mem_append.1 hx with hx | hx
    · exact hl x hx
    · rw [List.mem_singleton.1 hx]; exact he
  | remove n =>
    cases h
    intro x hx
    exact hl x (List.mem_filter.1 hx).1

theorem Lib.runLib_keeps (es : List (LibEdit F)) (he : ∀ e ∈ es, e.Fits) (l r : SymbolLib F)
    (hl : UnfinishedLib l) (h : runLib es l = .ok r) : UnfinishedLib r := by
  induction es generalizing l with
  | nil => cases h; exact hl
  | cons e es ih =>
    rw [List.forall_mem_cons] at he
    obtain ⟨l', h1, h2⟩ := Res.bind_eq_ok.1 h
    exact ih he.2 l' (Lib.libEdit_keeps e he.1 l l' hl h1) h2

/-- After any session whose arguments fit the file format, the library is saved and read back as
it is exactly if every symbol has got its two first fields. -/
theorem C87_session_survives_iff [TextLaws F] (es : List (LibEdit F)) (he : ∀ e ∈ es, e.Fits)
    (l r : SymbolLib F) (hl : UnfinishedLib l) (h : runLib es l = .ok r) :
    (∃ t, r.show = .ok t ∧ parseStr t = .ok r) ↔ ∀ s ∈ r.symbols, 2 ≤ s.fields.length := by
  rw [C86_library, Lib.fits_iff_unfinished]
  exact ⟨fun hx => hx.2, fun hx => ⟨Lib.runLib_keeps es he l r hl h, hx⟩⟩

/-- Nothing in between: it survives, or saving panics because a symbol lacks fields. -/
theorem C87_session_saves [TextLaws F] (es : List (LibEdit F)) (he : ∀ e ∈ es, e.Fits)
    (l r : SymbolLib F) (hl : UnfinishedLib l) (h : runLib es l = .ok r) :
    (∃ t, r.show = .ok t ∧ parseStr t = .ok r) ∨
    (r.show = .panic ∧ ∃ s ∈ r.symbols, s.fields.length < 2) := by
  by_cases hf : ∀ s ∈ r.symbols, 2 ≤ s.fields.length
  · exact .inl ((C87_session_survives_iff es he l r hl h).2 hf)
  · have hx : ∃ s ∈ r.symbols, s.fields.length < 2 := by simpa using hf
    exact .inr ⟨C14_few_fields_panic r hx, hx⟩

/-- Every library that was read and saved without loss can be the start of a session, and so can
the empty library. -/
theorem C87_start [TextLaws F] : UnfinishedLib (SymbolLib.dflt : SymbolLib F) ∧
    ∀ l : SymbolLib F, (∃ t, l.show = .ok t ∧ parseStr t = .ok l) → UnfinishedLib l :=
  ⟨fun s hs => absurd hs (List.not_mem_nil), fun l h => ((Lib.fits_iff_unfinished l).1 ((C86_library l).1 h)).1⟩

/-- A step of a session panics exactly if the symbol to be changed does not exist, or a symbol
without its two fields is to be renamed.  (No step of a session gives an error.) -/
theorem C87_step_panics_iff (e : LibEdit F) (l : SymbolLib F) (hl : UnfinishedLib l) :
    (e.run l = .panic ↔ ∃ i se, e = .edit i se ∧ (l.symbols.length ≤ i ∨ ∃ n s, se = .setName n ∧
      l.symbols[i]? = some s ∧ s.fields.length < 2)) ∧ ((∃ r, e.run l = .ok r) ∨ e.run l = .panic) := by
  have sym : ∀ (se : SymEdit F) (s : Symbol F), Unfinished s →
      (se.run s = .panic ↔ ∃ n, se = .setName n ∧ s.fields.length < 2) ∧
      ((∃ r, se.run s = .ok r) ∨ se.run s = .panic) := by
    intro se s hs
    cases se with
    | setName n =>
      change (s.setName n = _ ↔ _) ∧ ((∃ r, s.setName n = _) ∨ s.setName n = _)
      rw [C17_set_name_panics_iff]
      have hne : s.name ≠ [] := hs.1.1
      refine ⟨by simp [hne], ?_⟩
      match hn : s.name, hf : s.fields with
      | [], _ => exact absurd hn hne
      | ch :: cs, [] => exact .inr (.inr (by simp))
      | ch :: cs, [_] => exact .inr (.inr (by simp))
      | ch :: cs, f0 :: f1 :: fs =>
        left
        simp [Symbol.setName, Sch.charAt, hn, hf]
    | _ => simp [SymEdit.run]
  have at_ : ∀ (se : SymEdit F) (ss : List (Symbol F)) (i : Nat), (∀ s ∈ ss, Unfinished s) →
      (editAt se.run i ss = .panic ↔ ss.length ≤ i ∨ ∃ n s, se = .setName n ∧
        ss[i]? = some s ∧ s.fields.length < 2) ∧ ((∃ r, editAt se.run i ss = .ok r) ∨ editAt se.run i ss = .panic) := by
    intro se ss
    induction ss with
    | nil => intro i _; simp [editAt]
    | cons x ss ih =>
      intro i hx
      rw [List.forall_mem_cons] at hx
      cases i with
      | zero =>
        obtain ⟨h1, h2⟩ := sym se x hx.1
        rw [editAt]
        rcases h2 with ⟨r, h2⟩ | h2
        · have h3 : ¬ ∃ n, se = .setName n ∧ x.fields.length < 2 := by rw [← h1, h2]; simp
          refine ⟨?_, .inl ⟨_, by rw [h2]; rfl⟩⟩
          rw [h2]
          simpa using h3
        · refine ⟨?_, .inr (by rw [h2]; rfl)⟩
          rw [h2]
          simpa using h1.1 h2
      | succ i =>
        obtain ⟨h1, h2⟩ := ih i hx.2
        rw [editAt]
        rcases h2 with ⟨r, h2⟩ | h2
        · refine ⟨?_, .inl ⟨_, by rw [h2]; rfl⟩⟩
          have h3 := h1
          rw [h2] at h3 ⊢
          simpa using h3
        · refine ⟨?_, .inr (by rw [h2]; rfl)⟩
          have h3 := h1
          rw [h2] at h3 ⊢
          simpa using h3
  cases e with
  | edit i se =>
    obtain ⟨h1, h2⟩ := at_ se l.symbols i hl
    change ((editAt se.run i l.symbols).bind _ = _ ↔ _) ∧ ((∃ r, (editAt se.run i l.symbols).bind _ = _) ∨
      (editAt se.run i l.symbols).bind _ = _)
    rcases h2 with ⟨r, h2⟩ | h2
    · rw [h2] at h1 ⊢
      refine ⟨?_, .inl ⟨_, rfl⟩⟩
      constructor
      · intro h; cases h
      · rintro ⟨i', se', h3, h4⟩
        cases h3
        exact absurd (h1.2 h4) (by simp)
    · rw [h2] at h1 ⊢
      exact ⟨⟨fun _ => ⟨i, se, rfl, h1.1 rfl⟩, fun _ => rfl⟩, .inr rfl⟩
  | addNew _ _ => simp [LibEdit.run]
  | add _ => simp [LibEdit.run]
  | remove _ => simp [LibEdit.run]

/-- Changing one symbol leaves all others as they are, in their places. -/
theorem C87_others_untouched (i : Nat) (e : SymEdit F) (l r : SymbolLib F) (h : (LibEdit.edit i e).run l = .ok r) :
    r.symbols.length = l.symbols.length ∧ ∀ j, j ≠ i → r.symbols[j]? = l.symbols[j]? := by
  obtain ⟨ss, h1, h2⟩ := Res.bind_eq_ok.1 h
  cases h2
  obtain ⟨a, s, s', b, h3, h4, h5, rfl⟩ := (Lib.editAt_iff _ _ _ _).1 h1
  rw [h3]
  refine ⟨by simp, fun j hj => ?_⟩
  dsimp only
  by_cases hlt : j < a.length
  · rw [List.getElem?_append_left hlt, List.getElem?_append_left hlt]
  · rw [List.getElem?_append_right (by omega), List.getElem?_append_right (by omega)]
    obtain ⟨k, hk⟩ : ∃ k, j - a.length = k + 1 := ⟨j - a.length - 1, by omega⟩
    rw [hk, List.getElem?_cons_succ, List.getElem?_cons_succ]

/-- The default rectangle can be saved; the default field and the default pin cannot: a library
with a field numbered 0 to 3 that was not given its fixed name, or with a pin without name or
number, does not survive. -/
theorem C87_defaults [TextLaws F] : FitsRect Rectangle.dflt ∧
    (∀ l : SymbolLib F, (∃ s ∈ l.symbols, ∃ f ∈ s.fields, 0 ≤ f.i ∧ f.i ≤ 3 ∧ f.name = (Field.dflt : Lib.Field F).name) →
      ¬ ∃ t, l.show = .ok t ∧ parseStr t = .ok l) ∧
    (∀ l : SymbolLib F, (∃ s ∈ l.symbols, ∃ p, Draw.pin p ∈ s.draw ∧ (p.name = Pin.dflt.name ∨ p.number = Pin.dflt.number)) →
      ¬ ∃ t, l.show = .ok t ∧ parseStr t = .ok l) := by
  refine ⟨by decide, fun l => ?_, fun l => ?_⟩
  · rintro ⟨s, hs, f, hf, h0, h3, hn⟩ h
    obtain ⟨h1, _⟩ := (C86_library l).1 h
    obtain ⟨_, _, _, _, _, hx⟩ := (h1 s hs).1.2.2.2.2.1 f hf
    rw [hn] at hx
    obtain ⟨a, b, c, d⟩ := hx
    have : f.i = 0 ∨ f.i = 1 ∨ f.i = 2 ∨ f.i = 3 := by omega
    rcases this with hi | hi | hi | hi
    · cases a hi
    · cases b hi
    · cases c hi
    · cases d hi
  · rintro ⟨s, hs, p, hp, hx⟩ h
    obtain ⟨h1, _⟩ := (C86_library l).1 h
    have hf : FitsPin p := (h1 s hs).1.2.2.2.2.2.2 _ hp
    rcases hx with hx | hx
    · exact hf.1.1 hx
    · exact hf.2.1.1 hx

/-- What the defaults look like when they are saved: a field with only its number, value and name set
is a horizontal, invisible, centred field of size 0 at the origin, a pin with only its name, number
and place set is an invisible input pointing up, a rectangle with only its corners set is a
transparent one. -/
theorem C87_default_lines (z : Str) (hz : toStr (zero : F) = z) (v n : Str) :
    (∀ i : Int, i ≤ 3 → ({ (Field.dflt : Lib.Field F) with i := i, value := v, name := n }).show =
      str! "F" ++ showInt i ++ str! " \"" ++ v ++ str! "\" " ++ z ++ str! " " ++ z ++ str! " 0 H I C CNN") ∧
    (∀ i : Int, 3 < i → ({ (Field.dflt : Lib.Field F) with i := i, value := v, name := n }).show =
      str! "F" ++ showInt i ++ str! " \"" ++ v ++ str! "\" " ++ z ++ str! " " ++ z ++
        str! " 0 H I C CNN \"" ++ n ++ str! "\"") ∧
    (∀ x y : Int, ({ Pin.dflt with name := v, number := n, x := x, y := y }).show =
      str! "X " ++ v ++ str! " " ++ n ++ str! " " ++ showInt x ++ str! " " ++ showInt y ++
        str! " 0 U 0 0 0 0 I N") ∧
    (∀ x y x' y' : Int, ({ Rectangle.dflt with x1 := x, y1 := y, x2 := x', y2 := y' }).show =
      str! "S " ++ showInt x ++ str! " " ++ showInt y ++ str! " " ++ showInt x' ++ str! " " ++ showInt y' ++
        str! " 0 0 0 N") := by
  have s0 : showInt 0 = str! "0" := by decide
  refine ⟨fun i hi => ?_, fun i hi => ?_, fun x y => ?_, fun x y x' y' => ?_⟩
  · have : ¬ i > 3 := by omega
    unfold Lib.Field.show Field.dflt
    rw [hz, if_neg this, s0]
    simp only [Sch.Orientation.show, Sch.Justify.show]
    rw [if_neg (by decide), if_neg (by decide)]
    simp only [List.append_assoc, List.cons_append, List.nil_append, List.append_nil]
  · have : i > 3 := hi
    unfold Lib.Field.show Field.dflt
    rw [hz, if_pos this, s0]
    simp only [Sch.Orientation.show, Sch.Justify.show]
    rw [if_neg (by decide), if_neg (by decide)]
    simp only [List.append_assoc, List.cons_append, List.nil_append]
  · unfold Pin.show Pin.dflt
    rw [s0]
    simp only [PinOrientation.show, PinOrientation.dflt, PinType.show, PinType.dflt, PinShape.show, PinShape.dflt]
    rw [if_neg (by decide)]
    simp only [List.append_assoc, List.cons_append, List.nil_append, List.append_nil]
  · simp only [Rectangle.show, Rectangle.dflt, s0, Fill.show, Fill.dflt, List.append_assoc, List.cons_append,
      List.nil_append]

example : toStr (zero : Nm) = str! "0" := by decide

/-- A session: a new symbol with its fields, an alias, a pin and a rectangle, then renamed. -/
def Spec.sampleLibSession : List (LibEdit Nm) :=
  [.addNew (str! "~R") (str! "R"),
   .edit 0 (.addField { (Field.dflt : Lib.Field Nm) with value := str! "R", name := str! "Reference" }),
   .edit 0 (.addField { (Field.dflt : Lib.Field Nm) with i := 1, value := str! "R", name := str! "Value" }),
   .edit 0 (.addDraw (.rectangle { Rectangle.dflt with x2 := 50, y2 := 100 })),
   .edit 0 (.addDraw (.pin { Pin.dflt with name := str! "~", number := str! "1", y := 150, len := 50 })),
   .edit 0 (.addAlias (str! "Resistor")),
   .edit 0 (.setName (str! "RES"))]

theorem Spec.sampleLibSession_fits : ∀ e ∈ sampleLibSession, e.Fits := by
  unfold sampleLibSession
  simp only [List.forall_mem_cons, List.not_mem_nil, false_implies, implies_true, and_true]
  refine ⟨?_, ?_, ?_, ?_, ?_, ?_, ?_⟩ <;> (simp only [LibEdit.Fits, SymEdit.Fits]; decide)

/-- The session runs through and the library survives. -/
example : ∃ r, runLib sampleLibSession SymbolLib.dflt = .ok r ∧ r.symbols.map (·.name) = [str! "~RES"] ∧
    ∃ t, r.show = .ok t ∧ parseStr t = .ok r := by
  have h : ∃ r, runLib sampleLibSession SymbolLib.dflt = .ok r ∧ r.symbols.map (·.name) = [str! "~RES"] ∧
      ∀ s ∈ r.symbols, 2 ≤ s.fields.length := ⟨_, rfl, by decide +kernel⟩
  obtain ⟨r, h1, h2, h3⟩ := h
  exact ⟨r, h1, h2, (C87_session_survives_iff _ sampleLibSession_fits _ r C87_start.1 h1).2 h3⟩

/-- A new symbol cannot be renamed before it has its fields. -/
example : (LibEdit.edit 0 (.setName (str! "X")) : LibEdit Nm).run ⟨[Symbol.new (str! "A") (str! "U")]⟩ = .panic := rfl

end Verif

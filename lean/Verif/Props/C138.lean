import Verif.Props.C17
import Verif.Props.C13
import Verif.Props.C08
import Verif.Props.C87
/-!
# C138: renaming a symbol in a library and in a schematic

A component refers to a symbol by name; in the library the name can have a `~` in front, which hides it.  A program
renames the symbol with `set_name` and the components with `update_name`.
-/

namespace Verif
open Flt Spec

set_option linter.unusedSectionVars false

variable {F : Type} [Flt F]

/-- The symbol goes by this name. -/
def Spec.GoesBy (s : Lib.Symbol F) (n : Str) : Prop := s.name = n ∨ s.name = '~' :: n

instance (s : Lib.Symbol F) (n : Str) : Decidable (GoesBy s n) := inferInstanceAs (Decidable (_ ∨ _))

/-- `lib.find(|s| s.name == n || s.name == "~" + n)` (src/symbol_lib.rs 248-258). -/
def Spec.symbolOf (l : Lib.SymbolLib F) (n : Str) : Option (Lib.Symbol F) := l.find fun s => decide (GoesBy s n)

/-- `for s in &mut lib.symbols { if goes by old { s.set_name(new) } }` (src/symbol_lib.rs 292-300), the loop. -/
def Spec.renameSymbols (old new : Str) : List (Lib.Symbol F) → Res (List (Lib.Symbol F))
  | [] => .ok []
  | s :: ss => do
    let s' ← if GoesBy s old then s.setName new else .ok s
    let r ← renameSymbols old new ss
    .ok (s' :: r)

/-- The library after renaming. -/
def Spec.renameInLib (old new : Str) (l : Lib.SymbolLib F) : Res (Lib.SymbolLib F) := do
  let ss ← renameSymbols old new l.symbols
  .ok { l with symbols := ss }

/-- `modify_components(|c| if c.name == old { c.update_name(new) })` (src/schematic.rs 106-120, 525-532). -/
def Spec.renameComponents (old new : Str) (s : Sch.Schematic F) : Sch.Schematic F :=
  s.modifyComponents fun c => if c.name = old then c.updateName new else c

/-- The components for which there is no symbol. -/
def Spec.missing (l : Lib.SymbolLib F) (s : Sch.Schematic F) : List Str :=
  (s.components.filter fun c => (symbolOf l c.name).isNone).map (·.reference)

/-- A name without `~` in front. -/
def Spec.Unhidden (n : Str) : Prop := n.head? ≠ some '~'

namespace Symren

/-- What becomes of each symbol. -/
def Renamed (old new : Str) (s s' : Lib.Symbol F) : Prop :=
  (GoesBy s old ∧ s.setName new = .ok s') ∨ (¬ GoesBy s old ∧ s' = s)

theorem all {old new : Str} : ∀ {ss ss' : List (Lib.Symbol F)}, renameSymbols old new ss = .ok ss' →
    List.Forall₂ (Renamed old new) ss ss'
  | [], _, h => by cases h; exact .nil
  | s :: ss, ss', h => by
    simp only [renameSymbols] at h
    by_cases hg : GoesBy s old
    · rw [if_pos hg] at h
      cases h1 : s.setName new with
      | ok s' =>
        rw [h1, Res.bind_ok] at h
        cases h2 : renameSymbols old new ss with
        | ok r => rw [h2, Res.bind_ok] at h; cases h; exact .cons (Or.inl ⟨hg, h1⟩) (all h2)
        | err e => rw [h2] at h; cases h
        | panic => rw [h2] at h; cases h
        | diverge => rw [h2] at h; cases h
      | err e => rw [h1] at h; cases h
      | panic => rw [h1] at h; cases h
      | diverge => rw [h1] at h; cases h
    · rw [if_neg hg, Res.bind_ok] at h
      cases h2 : renameSymbols old new ss with
      | ok r => rw [h2, Res.bind_ok] at h; cases h; exact .cons (Or.inr ⟨hg, rfl⟩) (all h2)
      | err e => rw [h2] at h; cases h
      | panic => rw [h2] at h; cases h
      | diverge => rw [h2] at h; cases h

theorem of_lib {old new : Str} {l l' : Lib.SymbolLib F} (h : renameInLib old new l = .ok l') :
    List.Forall₂ (Renamed old new) l.symbols l'.symbols := by
  simp only [renameInLib] at h
  cases h1 : renameSymbols old new l.symbols with
  | ok r => rw [h1, Res.bind_ok] at h; cases h; exact all h1
  | err e => rw [h1] at h; cases h
  | panic => rw [h1] at h; cases h
  | diverge => rw [h1] at h; cases h

/-- A symbol goes by one name without `~` only. -/
theorem unique {s : Lib.Symbol F} {m n : Str} (hm : Unhidden m) (hn : Unhidden n) (h1 : GoesBy s m) (h2 : GoesBy s n) : m = n := by
  rcases h1 with h1 | h1 <;> rcases h2 with h2 | h2
  · exact h1.symm.trans h2
  · exact absurd (by rw [← h1, h2]; rfl) hm
  · exact absurd (by rw [← h2, h1]; rfl) hn
  · exact (List.cons.inj (h1.symm.trans h2)).2

theorem goes {s s' : Lib.Symbol F} {new : Str} (h : s.setName new = .ok s') : GoesBy s' new := by
  have := (C17_set_name s s' new h).1
  split at this
  · exact Or.inr this
  · exact Or.inl this

theorem find_cons (s : Lib.Symbol F) (ss : List (Lib.Symbol F)) (n : Str) :
    symbolOf ⟨s :: ss⟩ n = if GoesBy s n then some s else symbolOf ⟨ss⟩ n := by
  simp only [symbolOf, Lib.SymbolLib.find, Lib.SymbolLib.find.go, decide_eq_true_eq]

theorem other {old new : Str} (ho : Unhidden old) (hn : Unhidden new) (n : Str) (hu : Unhidden n) (h1 : n ≠ old) (h2 : n ≠ new) :
    ∀ {ss ss' : List (Lib.Symbol F)}, List.Forall₂ (Renamed old new) ss ss' → symbolOf ⟨ss'⟩ n = symbolOf ⟨ss⟩ n
  | _, _, .nil => rfl
  | s :: ss, s' :: ss', .cons hd tl => by
    rw [find_cons, find_cons, other ho hn n hu h1 h2 tl]
    rcases hd with ⟨hg, hs⟩ | ⟨hg, rfl⟩
    · rw [if_neg fun h => h1 (unique hu ho h hg), if_neg fun h => h2 (unique hu hn h (goes hs))]
    · rfl

theorem hit {old new : Str} (ho : Unhidden old) (hn : Unhidden new) :
    ∀ {ss ss' : List (Lib.Symbol F)}, List.Forall₂ (Renamed old new) ss ss' → (old ≠ new → ∀ s ∈ ss, ¬ GoesBy s new) →
      symbolOf ⟨ss'⟩ new = (symbolOf ⟨ss⟩ old).bind fun s => match s.setName new with | .ok s' => some s' | _ => none
  | _, _, .nil, _ => rfl
  | s :: ss, s' :: ss', .cons hd tl, hf => by
    have ih := hit ho hn tl fun h s hs => hf h s (List.mem_cons_of_mem _ hs)
    rw [find_cons, find_cons, ih]
    rcases hd with ⟨hg, hs⟩ | ⟨hg, rfl⟩
    · rw [if_pos hg, if_pos (goes hs), Option.bind_some, hs]
    · rw [if_neg hg, if_neg]
      by_cases e : old = new
      · rwa [← e]
      · exact hf e s' (List.mem_cons_self ..)

theorem gone {old new : Str} (ho : Unhidden old) (hn : Unhidden new) (e : old ≠ new) :
    ∀ {ss ss' : List (Lib.Symbol F)}, List.Forall₂ (Renamed old new) ss ss' → symbolOf ⟨ss'⟩ old = none
  | _, _, .nil => rfl
  | s :: ss, s' :: ss', .cons hd tl => by
    rw [find_cons, gone ho hn e tl]
    rcases hd with ⟨hg, hs⟩ | ⟨hg, rfl⟩
    · rw [if_neg fun h => e (unique ho hn h (goes hs))]
    · rw [if_neg hg]

end Symren

/-- Renaming in the library panics exactly if a symbol of the old name has an empty name or less than two fields; it never
fails otherwise. -/
theorem C138_panics (old new : Str) (l : Lib.SymbolLib F) :
    ((∃ s ∈ l.symbols, GoesBy s old ∧ (s.name = [] ∨ s.fields.length < 2)) → renameInLib old new l = .panic) ∧
    ((∀ s ∈ l.symbols, GoesBy s old → s.name ≠ [] ∧ 2 ≤ s.fields.length) → ∃ l', renameInLib old new l = .ok l') := by
  have set_ok : ∀ s : Lib.Symbol F, ¬ (s.name = [] ∨ s.fields.length < 2) → ∃ s', s.setName new = .ok s' := by
    intro s hs
    obtain ⟨name, ref, a, b, c, d, e, g, fields, al, dr⟩ := s
    match name, fields, hs with
    | [], _, hs => exact absurd (Or.inl rfl) hs
    | _ :: _, [], hs => exact absurd (Or.inr (by simp)) hs
    | _ :: _, [_], hs => exact absurd (Or.inr (by simp)) hs
    | ch :: name, f0 :: f1 :: fs, _ => exact ⟨_, rfl⟩
  obtain ⟨ss⟩ := l
  have key : ((∃ s ∈ ss, GoesBy s old ∧ (s.name = [] ∨ s.fields.length < 2)) ∧ renameSymbols old new ss = .panic) ∨
      ((∀ s ∈ ss, GoesBy s old → s.name ≠ [] ∧ 2 ≤ s.fields.length) ∧ ∃ r, renameSymbols old new ss = .ok r) := by
    induction ss with
    | nil => exact Or.inr ⟨fun s hs => (List.not_mem_nil hs).elim, _, rfl⟩
    | cons s ss ih =>
      by_cases hg : GoesBy s old
      · by_cases hp : s.name = [] ∨ s.fields.length < 2
        · refine Or.inl ⟨⟨s, List.mem_cons_self .., hg, hp⟩, ?_⟩
          rw [renameSymbols, if_pos hg, (C17_set_name_panics_iff s new).2 hp]
          rfl
        · obtain ⟨s', hs'⟩ := set_ok s hp
          rcases ih with ⟨⟨t, ht, h1⟩, h2⟩ | ⟨h1, r, h2⟩
          · refine Or.inl ⟨⟨t, List.mem_cons_of_mem _ ht, h1⟩, ?_⟩
            rw [renameSymbols, if_pos hg, hs', Res.bind_ok, h2]
            rfl
          · refine Or.inr ⟨List.forall_mem_cons.2 ⟨fun _ => ⟨fun e => hp (Or.inl e), ?_⟩, h1⟩, s' :: r, ?_⟩
            · exact Nat.le_of_not_lt fun e => hp (Or.inr e)
            · rw [renameSymbols, if_pos hg, hs', Res.bind_ok, h2]
              rfl
      · rcases ih with ⟨⟨t, ht, h1⟩, h2⟩ | ⟨h1, r, h2⟩
        · refine Or.inl ⟨⟨t, List.mem_cons_of_mem _ ht, h1⟩, ?_⟩
          rw [renameSymbols, if_neg hg, Res.bind_ok, h2]
          rfl
        · refine Or.inr ⟨List.forall_mem_cons.2 ⟨fun h => absurd h hg, h1⟩, s :: r, ?_⟩
          rw [renameSymbols, if_neg hg, Res.bind_ok, h2]
          rfl
  constructor
  · rintro ⟨s, hs, hg, hp⟩
    rcases key with ⟨_, h⟩ | ⟨h, _⟩
    · show (renameSymbols old new ss >>= _) = _
      rw [h]
      rfl
    · obtain ⟨h1, h2⟩ := h s hs hg
      rcases hp with hp | hp
      · exact absurd hp h1
      · omega
  · intro h
    rcases key with ⟨⟨s, hs, hg, hp⟩, _⟩ | ⟨_, r, hr⟩
    · obtain ⟨h1, h2⟩ := h s hs hg
      rcases hp with hp | hp
      · exact absurd hp h1
      · omega
    · exact ⟨⟨r⟩, by show (renameSymbols old new ss >>= _) = _; rw [hr]; rfl⟩

/-- In the renamed library the new name is that of the symbol that had the old one, all other names are those of the
symbols they were, and the old name is nobody's. -/
theorem C138_library (old new : Str) (l l' : Lib.SymbolLib F) (ho : Unhidden old) (hn : Unhidden new)
    (hf : old ≠ new → symbolOf l new = none) (h : renameInLib old new l = .ok l') :
    (∀ s, symbolOf l old = some s → ∃ s', s.setName new = .ok s' ∧ symbolOf l' new = some s') ∧
    (symbolOf l old = none → symbolOf l' new = none) ∧
    (∀ n, Unhidden n → n ≠ old → n ≠ new → symbolOf l' n = symbolOf l n) ∧
    (old ≠ new → symbolOf l' old = none) := by
  have hr := Symren.of_lib h
  obtain ⟨ss⟩ := l
  obtain ⟨ss'⟩ := l'
  have hf' : old ≠ new → ∀ s ∈ ss, ¬ GoesBy s new := fun e s hs => by
    have := (C17_find_none (⟨ss⟩ : Lib.SymbolLib F) _).1 (hf e) s hs
    simpa using this
  have key := Symren.hit ho hn hr hf'
  refine ⟨fun s hs => ?_, fun hs => by rw [key, hs]; rfl, fun n hu h1 h2 => Symren.other ho hn n hu h1 h2 hr,
    fun e => Symren.gone ho hn e hr⟩
  rw [hs, Option.bind_some] at key
  obtain ⟨pre, post, e1, e2, _⟩ := (C17_find_first (⟨ss⟩ : Lib.SymbolLib F) _ s).1 hs
  have hg : GoesBy s old := by simpa using e2
  have hm : s ∈ ss := by
    have e1 : ss = pre ++ s :: post := e1
    rw [e1]; simp
  have hset : ∃ s', s.setName new = .ok s' := by
    by_cases hp : s.name = [] ∨ s.fields.length < 2
    · have := (C138_panics old new (⟨ss⟩ : Lib.SymbolLib F)).1 ⟨s, hm, hg, hp⟩
      rw [this] at h
      cases h
    · have : ∀ {a b : List (Lib.Symbol F)}, List.Forall₂ (Symren.Renamed old new) a b → s ∈ a → ∃ s', s.setName new = .ok s' := by
        intro a b hab
        induction hab with
        | nil => exact fun h => (List.not_mem_nil h).elim
        | cons hd _ ih =>
          intro hs
          rcases List.mem_cons.1 hs with rfl | hs
          · rcases hd with ⟨_, h⟩ | ⟨h, _⟩
            · exact ⟨_, h⟩
            · exact absurd hg h
          · exact ih hs
      exact this hr hm
  obtain ⟨s', hs'⟩ := hset
  rw [hs'] at key
  exact ⟨s', hs', key⟩

/-- Renaming in both keeps which components have a symbol. -/
theorem C138_both (old new : Str) (l l' : Lib.SymbolLib F) (s : Sch.Schematic F) (ho : Unhidden old) (hn : Unhidden new)
    (hf : old ≠ new → symbolOf l new = none) (hc : ∀ c ∈ s.components, Unhidden c.name ∧ (old ≠ new → c.name ≠ new))
    (h : renameInLib old new l = .ok l') : missing l' (renameComponents old new s) = missing l s := by
  obtain ⟨h1, h2, h3, _⟩ := C138_library old new l l' ho hn hf h
  simp only [missing, renameComponents, (C08_modify_components s _).2.2, List.filter_map, List.map_map]
  have e1 : ∀ c ∈ s.components, (symbolOf l' (if c.name = old then c.updateName new else c).name).isNone = (symbolOf l c.name).isNone := by
    intro c hm
    by_cases e : c.name = old
    · rw [if_pos e, e]
      show (symbolOf l' new).isNone = _
      cases hs : symbolOf l old with
      | none => rw [h2 hs]
      | some x =>
        obtain ⟨x', _, hx⟩ := h1 x hs
        rw [hx]
        rfl
    · rw [if_neg e]
      by_cases e' : c.name = new
      · have : old = new := Classical.byContradiction fun x => (hc c hm).2 x e'
        exact absurd (e'.trans this.symm) e
      · rw [h3 _ (hc c hm).1 e e']
  have e2 : ∀ c : Sch.Component F, (if c.name = old then c.updateName new else c).reference = c.reference := by
    intro c
    split <;> rfl
  have e3 : (s.components.filter ((fun c : Sch.Component F => (symbolOf l' c.name).isNone) ∘ fun c => if c.name = old then c.updateName new else c)) =
      s.components.filter fun c => (symbolOf l c.name).isNone := List.filter_congr fun c hm => e1 c hm
  rw [e3]
  exact List.map_congr_left fun c _ => e2 c

/-- Renaming in the library only: every component of the old name is missing its symbol. -/
theorem C138_half (old new : Str) (l l' : Lib.SymbolLib F) (s : Sch.Schematic F) (ho : Unhidden old) (hn : Unhidden new) (hne : old ≠ new)
    (hf : symbolOf l new = none) (h : renameInLib old new l = .ok l') (c : Sch.Component F) (hc : c ∈ s.components) (e : c.name = old) :
    c.reference ∈ missing l' s := by
  have := (C138_library old new l l' ho hn (fun _ => hf) h).2.2.2 hne
  exact List.mem_map.2 ⟨c, List.mem_filter.2 ⟨hc, by rw [e, this]; rfl⟩, rfl⟩

/-- A renamed library whose symbols are complete is saved and read back as it is. -/
theorem C138_saved [TextLaws F] (old new : Str) (l l' : Lib.SymbolLib F) (hw : Word new) (hl : FitsLib l) (hb : ¬ HasBold l)
    (h : renameInLib old new l = .ok l') : ∃ t, l'.show = .ok t ∧ Lib.parseStr t = .ok l' := by
  have hr := Symren.of_lib h
  obtain ⟨hu, h2⟩ := (Lib.fits_iff_unfinished l).1 ⟨hl, hb⟩
  have key : ∀ {a b : List (Lib.Symbol F)}, List.Forall₂ (Symren.Renamed old new) a b →
      (∀ s ∈ a, Unfinished s ∧ 2 ≤ s.fields.length) → ∀ s ∈ b, Unfinished s ∧ 2 ≤ s.fields.length := by
    intro a b hab
    induction hab with
    | nil => exact fun h => h
    | cons hd _ ih =>
      intro ha
      rw [List.forall_mem_cons] at ha ⊢
      refine ⟨?_, ih ha.2⟩
      rcases hd with ⟨_, hs⟩ | ⟨_, rfl⟩
      · refine ⟨Lib.symEdit_keeps (.setName new) hw _ _ ha.1.1 hs, ?_⟩
        rw [(C17_set_name _ _ new hs).2.1]
        exact ha.1.2
      · exact ha.1
  have hall := key hr fun s hs => ⟨hu s hs, h2 s hs⟩
  exact (C86_library l').2 ((Lib.fits_iff_unfinished l').2 ⟨fun s hs => (hall s hs).1, fun s hs => (hall s hs).2⟩)

/-! ### Cases -/

/-- A library with a hidden and a visible name. -/
def Symren.lib : Lib.SymbolLib Nm :=
  ⟨[{ (Spec.hiddenSymbol : Lib.Symbol Nm) with name := str! "~R" }, { (Spec.hiddenSymbol : Lib.Symbol Nm) with name := str! "C" }]⟩

example : Spec.hiddenSymbol.fields.length = 2 := by decide

example : ((symbolOf Symren.lib (str! "R")).map (·.name), (symbolOf Symren.lib (str! "RES")).map (·.name)) =
    (some (str! "~R"), none) := by decide +kernel

example : ∃ l', renameInLib (str! "R") (str! "RES") Symren.lib = .ok l' ∧
    (symbolOf l' (str! "RES")).map (·.name) = some (str! "~RES") ∧ symbolOf l' (str! "R") = none := by
  refine ⟨_, rfl, by decide +kernel, by decide +kernel⟩

/-- A name that is in use: afterwards the components get the other symbol. -/
theorem C138_taken : ∃ (l l' : Lib.SymbolLib Nm) (old new : Str), renameInLib old new l = .ok l' ∧ Unhidden old ∧ Unhidden new ∧
    old ≠ new ∧ (symbolOf l old).map (·.reference) ≠ (symbolOf l' new).map (·.reference) := by
  refine ⟨⟨[{ (Spec.hiddenSymbol : Lib.Symbol Nm) with name := str! "RES", reference := str! "RN" },
    { (Spec.hiddenSymbol : Lib.Symbol Nm) with name := str! "R", reference := str! "R" }]⟩, _, str! "R", str! "RES", rfl,
    by unfold Unhidden; decide, by unfold Unhidden; decide, by decide, by decide +kernel⟩

end Verif

import Verif.Lemmas.SchTrace
import Verif.Lemmas.SchRead
import Verif.Props.C76
/-!
# C91 – the error message of the schematic reader is about the first line at fault
-/

namespace Verif
open Sch Spec

variable {F : Type} [Flt F]

/-- The file ends in the middle of the head: it is empty or stops after the first line of the layers. -/
def Spec.HeadBreaksOff (ls : List Str) : Prop :=
  ls = [] ∨ ∃ (names : List Str) (layer : Str), ls = str! "EESchema Schematic File Version 2" :: (names.map fun n => str! "LIBS:" ++ n) ++
    [str! "EELAYER " ++ layer]

/-- After these lines a schematic is still possible: some text that begins with them is read. -/
def Spec.StillPossible (F : Type) [Flt F] (fn : Option Str) (ls : List Str) : Prop :=
  ∃ t more, lines t = ls ++ more ∧ ∃ s : Schematic F, Sch.parse fn t = .ok s

theorem Sch.text_of_lines (ls : List Str) (h : ∀ l ∈ ls, '\n' ∉ l) : ∃ t, lines t = ls := by
  refine ⟨unlines (ls.map fun l => l ++ ['\r']), ?_⟩
  rw [lines_unlines_strip]
  · rw [List.map_map]
    conv_rhs => rw [← List.map_id ls]
    exact List.map_congr_left fun l _ => stripCr_append l
  · intro l hl
    obtain ⟨l', h', rfl⟩ := List.mem_map.1 hl
    simpa using h l' h'

theorem Sch.Msg.blames_not_eof {l m : Str} (h : Blames F l m) : m ≠ str! "end of file reached" := by
  cases h <;> intro h' <;> simp at h'

theorem Sch.Msg.tr_lines (fn : Option Str) (v : List Str) (m : Str) (h : (Msg.parseLines fn v : Said (Schematic F)) = .err m) :
    (m = str! "end of file reached" ∧ HeadBreaksOff v) ∨
    ∃ b l a, v = b ++ l :: a ∧ Blames F l m ∧ (∀ a', (Msg.parseLines fn (b ++ l :: a') : Said (Schematic F)) = .err m) ∧
      ∃ r, (∀ l ∈ r, '\n' ∉ l) ∧ ∃ x, (Msg.parseLines fn (b ++ r) : Said (Schematic F)) = .ok x := by
  cases v with
  | nil => cases h; exact .inl ⟨rfl, .inl rfl⟩
  | cons s v =>
    by_cases hs : s = str! "EESchema Schematic File Version 2"
    swap
    · have he : ∀ v, (Msg.parseLines fn (s :: v) : Said (Schematic F)) =
          .err (str! "expected '" ++ str! "EESchema Schematic File Version 2" ++ str! "', got '" ++ s ++ str! "'") := by
        intro v
        unfold Msg.parseLines Msg.assumeLine
        dsimp only
        rw [if_pos hs]
        rfl
      rw [he] at h
      cases h
      exact .inr ⟨[], s, v, rfl, .line (by decide) hs, he, [str! "EESchema Schematic File Version 2", str! "EELAYER 25 0", str! "EELAYER END"],
        by decide, _, rfl⟩
    subst hs
    obtain ⟨names, rest, rfl, h1, h2⟩ := libs_read v ({ Schematic.dflt with filename := fn } : Schematic F)
    have he : ∀ z, (∀ s r, z = s :: r → startsWith s (str! "LIBS:") = false) →
        (Msg.parseLines fn (str! "EESchema Schematic File Version 2" :: ((names.map fun n => str! "LIBS:" ++ n) ++ z)) :
          Said (Schematic F)) =
        Msg.here z >>= fun s => if !startsWith s (str! "EELAYER ") then .err (str! "expecting EELAYER, got " ++ s) else
          Msg.assumeLine (str! "EELAYER END") (next z) >>= fun p => Msg.parseItems p.length
            ({ { Schematic.dflt with filename := fn } with libraries := names, eelayer := s } : Schematic F) p := by
      intro z hz
      unfold Msg.parseLines Msg.assumeLine
      dsimp only
      rw [if_neg (by simp), Said.bind_ok, libs_accept names z hz]
      rfl
    have hvia : (∀ l ∈ [str! "EELAYER 25 0", str! "EELAYER END"], '\n' ∉ l) ∧ ∃ x, (Msg.parseLines fn
        (str! "EESchema Schematic File Version 2" :: (names.map fun n => str! "LIBS:" ++ n) ++
        [str! "EELAYER 25 0", str! "EELAYER END"]) : Said (Schematic F)) = .ok x := by
      rw [List.cons_append, he _ (by intro s r e; cases e; rfl)]
      exact ⟨by decide, _, rfl⟩
    rw [he rest h1] at h
    cases rest with
    | nil => cases h
    | cons s rest =>
      rw [show Msg.here (s :: rest) = .ok s from rfl, Said.bind_ok] at h
      cases hl : startsWith s (str! "EELAYER ") with
      | false =>
        rw [hl] at h
        cases h
        refine .inr ⟨_ :: names.map _, s, rest, by rw [List.cons_append], .layers ?_, fun a' => ?_, _, hvia⟩
        · rintro ⟨r, rfl⟩
          rw [show startsWith (str! "EELAYER " ++ r) (str! "EELAYER ") = true from
            List.isPrefixOf_iff_prefix.2 ⟨r, rfl⟩] at hl
          cases hl
        · rw [List.cons_append, he _ (by intro s' r e; cases e; exact h1 s rest rfl)]
          show (if !startsWith s (str! "EELAYER ") then _ else _) = _
          rw [hl]; rfl
      | true =>
        obtain ⟨layer, rfl⟩ := List.isPrefixOf_iff_prefix.1 hl
        have he2 : ∀ z, (Msg.parseLines fn (str! "EESchema Schematic File Version 2" ::
            ((names.map fun n => str! "LIBS:" ++ n) ++ (str! "EELAYER " ++ layer) :: z)) : Said (Schematic F)) =
          Msg.assumeLine (str! "EELAYER END") z >>= fun p => Msg.parseItems p.length
            ({ { Schematic.dflt with filename := fn } with libraries := names, eelayer := str! "EELAYER " ++ layer } : Schematic F) p := by
          intro z
          rw [he _ (by intro s' r e; cases e; rfl)]
          rw [show ∀ (l : Str) r, Msg.here (l :: r) = .ok l from fun _ _ => rfl, Said.bind_ok, hl]; rfl
        have hvia2 : (∀ l ∈ [str! "EELAYER END"], '\n' ∉ l) ∧ ∃ x, (Msg.parseLines fn
            ((str! "EESchema Schematic File Version 2" :: (names.map fun n => str! "LIBS:" ++ n) ++ [str! "EELAYER " ++ layer]) ++
            [str! "EELAYER END"]) : Said (Schematic F)) = .ok x := by
          rw [List.cons_append, List.cons_append, List.append_assoc]
          rw [show ∀ a b : Str, [a] ++ [b] = [a, b] from fun _ _ => rfl, he2]
          exact ⟨by decide, _, rfl⟩
        rw [hl] at h
        simp only [Bool.not_true, Bool.false_eq_true, if_false] at h
        change (Msg.assumeLine (str! "EELAYER END") rest >>= _) = _ at h
        cases rest with
        | nil =>
          cases h
          exact .inl ⟨rfl, .inr ⟨names, layer, rfl⟩⟩
        | cons s rest =>
          by_cases hs : s = str! "EELAYER END"
          swap
          · unfold Msg.assumeLine at h
            dsimp only at h
            rw [if_pos hs] at h
            cases h
            refine .inr ⟨_ :: names.map _ ++ [str! "EELAYER " ++ layer], s, rest, by simp, .line (by decide) hs, fun a' => ?_, _, hvia2⟩
            rw [List.cons_append, List.cons_append, List.append_assoc,
              show ∀ (a b : Str) c, [a] ++ b :: c = a :: b :: c from fun _ _ _ => rfl, he2]
            unfold Msg.assumeLine
            dsimp only
            rw [if_pos hs]; rfl
          subst hs
          rw [show Msg.assumeLine (str! "EELAYER END") (str! "EELAYER END" :: rest) = .ok rest from rfl, Said.bind_ok] at h
          obtain ⟨b, l, a, rfl, k1, k2, r, kr, k3⟩ := Msg.tr_items _ _ _ m h
          have he3 : ∀ z, (Msg.parseLines fn ((str! "EESchema Schematic File Version 2" :: (names.map fun n => str! "LIBS:" ++ n) ++
              [str! "EELAYER " ++ layer, str! "EELAYER END"]) ++ z) : Said (Schematic F)) = Msg.parseItems z.length
            ({ { Schematic.dflt with filename := fn } with libraries := names, eelayer := str! "EELAYER " ++ layer } : Schematic F) z := by
            intro z
            rw [List.cons_append, List.cons_append, List.append_assoc,
              show ∀ (a b : Str) c, [a, b] ++ c = a :: b :: c from fun _ _ _ => rfl, he2]
            rfl
          refine .inr ⟨(str! "EESchema Schematic File Version 2" :: (names.map fun n => str! "LIBS:" ++ n) ++
            [str! "EELAYER " ++ layer, str! "EELAYER END"]) ++ b, l, a, by simp, k1, fun a' => ?_, r, kr, ?_⟩
          · rw [List.append_assoc, he3]
            exact k2 a' _ (Nat.le_refl _)
          · rw [List.append_assoc, he3]
            exact k3 _ (Nat.le_refl _)

/-- Reading with messages is reading: without the texts the outcomes are those of the reader. -/
theorem C91_same (fn : Option Str) (t : Str) : (Msg.parse fn t : Said (Schematic F)).forget = Sch.parse fn t :=
  Msg.parseLines_forget fn (lines t)

/-- A text is refused with the message `m` exactly if either it breaks off in the head and
`m` says so, or `m` is true of one of its lines, a schematic was still possible before this
line, and every text with the same lines up to it is refused with the same message. -/
theorem C91_first (fn : Option Str) (t m : Str) : (Msg.parse fn t : Said (Schematic F)) = .err m ↔
    (m = str! "end of file reached" ∧ HeadBreaksOff (lines t)) ∨
    ∃ before line after, lines t = before ++ line :: after ∧ Blames F line m ∧ StillPossible F fn before ∧
      ∀ t' after', lines t' = before ++ line :: after' → (Msg.parse fn t' : Said (Schematic F)) = .err m := by
  constructor
  · intro h
    rcases Msg.tr_lines fn (lines t) m h with h | ⟨b, l, a, hv, h1, h2, r, hr, x, hx⟩
    · exact .inl h
    · refine .inr ⟨b, l, a, hv, h1, ?_, fun t' a' ht => ?_⟩
      · obtain ⟨t', ht'⟩ := text_of_lines (b ++ r) (by
          intro s hs
          rcases List.mem_append.1 hs with hs | hs
          · exact lines_noLf t s (by rw [hv]; exact List.mem_append_left _ hs)
          · exact hr s hs)
        refine ⟨t', r, ht', x, ?_⟩
        rw [← C91_same, Msg.parse, ht', hx]
        rfl
      · rw [Msg.parse, ht]
        exact h2 a'
  · rintro (⟨rfl, h⟩ | ⟨b, l, a, ht, _, _, h⟩)
    · show Msg.parseLines fn (lines t) = _
      rcases h with h | ⟨names, layer, h⟩
      · rw [h]; rfl
      · rw [h, List.cons_append]
        unfold Msg.parseLines Msg.assumeLine
        dsimp only
        rw [if_neg (by simp), Said.bind_ok, libs_accept names _ (by intro s r e; cases e; exact notLibs layer)]
        dsimp only
        rw [show ∀ (l : Str) r, Msg.here (l :: r) = .ok l from fun _ _ => rfl, Said.bind_ok,
          show startsWith (str! "EELAYER " ++ layer) (str! "EELAYER ") = true from
            List.isPrefixOf_iff_prefix.2 ⟨layer, rfl⟩]
        rfl
    · exact h t a ht

/-- The message about a missing end is only given for texts that break off in the head. -/
theorem C91_end (fn : Option Str) (t : Str) :
    (Msg.parse fn t : Said (Schematic F)) = .err (str! "end of file reached") ↔ HeadBreaksOff (lines t) := by
  rw [C91_first]
  constructor
  · rintro (⟨_, h⟩ | ⟨_, l, _, _, h, _⟩)
    · exact h
    · exact absurd rfl (Msg.blames_not_eof h)
  · exact fun h => .inl ⟨rfl, h⟩

/-- There is only one first line at fault. -/
theorem C91_unique (fn : Option Str) {b b' : List Str} {l l' : Str} {a a' : List Str} (h : b ++ l :: a = b' ++ l' :: a')
    (hb : StillPossible F fn b) (hb' : StillPossible F fn b')
    (hl : ∀ t r, lines t = b ++ l :: r → ∀ s : Schematic F, Sch.parse fn t ≠ .ok s)
    (hl' : ∀ t r, lines t = b' ++ l' :: r → ∀ s : Schematic F, Sch.parse fn t ≠ .ok s) : b = b' ∧ l = l' ∧ a = a' := by
  obtain ⟨t, r, ht, s, hs⟩ := hb
  obtain ⟨t', r', ht', s', hs'⟩ := hb'
  rcases List.append_eq_append_iff.1 h with ⟨c, h1, h2⟩ | ⟨c, h1, h2⟩
  · cases c with
    | nil =>
      rw [List.append_nil] at h1
      obtain ⟨rfl, rfl⟩ := List.cons.inj h2
      exact ⟨h1.symm, rfl, rfl⟩
    | cons x c =>
      obtain ⟨rfl, rfl⟩ := List.cons.inj h2
      exact absurd hs' (hl t' (c ++ r') (by rw [ht', h1, List.append_assoc]; rfl) s')
  · cases c with
    | nil =>
      rw [List.append_nil] at h1
      obtain ⟨rfl, rfl⟩ := List.cons.inj h2
      exact ⟨h1, rfl, rfl⟩
    | cons x c =>
      obtain ⟨rfl, rfl⟩ := List.cons.inj h2
      exact absurd hs (hl' t (c ++ r) (by rw [ht, h1, List.append_assoc]; rfl) s)

/-! ## Concrete cases -/

/-- A schematic whose fifth line has a word in place of a number. -/
def C91_text : Str := str! "EESchema Schematic File Version 2\nLIBS:device\nEELAYER 25 0\nEELAYER END\nNoConn ~ 100 two\nWire\n"

/-- The message says which word of which line; the second bad line is not mentioned. -/
example : (Msg.parse none C91_text : Said (Schematic Nm)) = .err (str! "int parse error in two; line: NoConn ~ 100 two") := by decide

/-- So the theorem applies: after four lines a schematic was still possible. -/
example : ∃ before line after, lines C91_text = before ++ line :: after ∧
    Blames Nm line (str! "int parse error in two; line: NoConn ~ 100 two") ∧ StillPossible Nm none before := by
  rcases (C91_first (F := Nm) none C91_text (str! "int parse error in two; line: NoConn ~ 100 two")).1 (by decide) with ⟨h, _⟩ | ⟨b, l, a, h, h1, h2, _⟩
  · exact absurd h (by decide)
  · exact ⟨b, l, a, h, h1, h2⟩

/-- A file that breaks off. -/
example : (Msg.parse none (str! "EESchema Schematic File Version 2\nEELAYER 25 0\n") : Said (Schematic Nm)) =
    .err (str! "end of file reached") := (C91_end ..).2 (.inr ⟨[], str! "25 0", by decide⟩)

/-- A component with a field of the wrong length. -/
example : (Msg.parse none (str! "EESchema Schematic File Version 2\nEELAYER 25 0\nEELAYER END\n$Comp\nL R R1\nF 0 \"R1\" H\n$EndComp\n") :
    Said (Schematic Nm)) = .err (str! "expecting 10 or 11 parts got 4 in F 0 \"R1\" H") := by
  unfold Msg.parse Msg.parseLines
  decide +kernel

end Verif

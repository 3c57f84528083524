import Verif.Props.C36
import Verif.Basic.Nm
/-!
# C72: the sections of a board file: any order, the last one counts, defaults
-/

namespace Verif
open Flt Lay Spec Sx

variable {F : Type} [Flt F]

/-- A section with this name. -/
def Spec.SectionNamed (n : Str) (s : Sexp) : Prop := ∃ r, s = .list (.str n :: r)

/-- A value is described by the sections of this name: if there is none it is the
default, otherwise only the last one counts. -/
def Spec.LastOf {α : Type} (n : Str) (means : Sexp → α → Prop) (dflt : α) (cs : List Sexp) (v : α) : Prop :=
  (∀ c ∈ cs, ¬ SectionNamed n c) ∧ v = dflt ∨
  ∃ a c b, cs = a ++ c :: b ∧ SectionNamed n c ∧ (∀ c' ∈ b, ¬ SectionNamed n c') ∧ means c v

/-! ## Lemmas -/

/-- What a section does to the board. -/
inductive Lay.Change (F : Type)
  | version (v : Int) | host (v : Host) | general (v : General F) | page (v : Str) | layers (v : List Layer)
  | setup (v : Setup) | push (e : Elem F)

/-- Carrying out a change. -/
def Lay.Change.apply (l : Layout F) : Change F → Layout F
  | .version v => { l with version := v }
  | .host v => { l with host := v }
  | .general v => { l with general := v }
  | .page v => { l with page := v }
  | .layers v => { l with layers := v }
  | .setup v => { l with setup := v }
  | .push e => { l with elements := l.elements ++ [e] }

/-- The change a section stands for. -/
def Lay.changeOf (e : Sexp) : Res (Change F) := do
  let n ← listName e
  if n = str! "version" then do let v ← single (str! "version") int e; .ok (.version v)
  else if n = str! "host" then do let v ← Host.de e; .ok (.host v)
  else if n = str! "general" then do let v ← General.de e; .ok (.general v)
  else if n = str! "page" then do let v ← single (str! "page") string e; .ok (.page v)
  else if n = str! "layers" then do let v ← LayerVec.de e; .ok (.layers v)
  else if n = str! "setup" then do let v ← Setup.de e; .ok (.setup v)
  else do let v ← Elem.read e; .ok (.push v)

theorem Lay.step_change (l : Layout F) (e : Sexp) :
    l.step e = changeOf e >>= fun c => .ok (c.apply l) := by
  cases hl : listName e with
  | ok n =>
    by_cases hn : n ∈ headerSections
    · simp only [headerSections, List.mem_cons, List.not_mem_nil, or_false] at hn
      rcases hn with rfl | rfl | rfl | rfl | rfl | rfl <;>
        simp [Layout.step, changeOf, hl, Res.bind_assoc, Change.apply]
    · simp only [headerSections, List.mem_cons, List.not_mem_nil, or_false, not_or] at hn
      obtain ⟨h1, h2, h3, h4, h5, h6⟩ := hn
      simp only [Layout.step, Elem.read, changeOf, hl, h1, h2, h3, h4, h5, h6, Res.bind_ok, if_false, bind_ite,
        Res.bind_assoc, Change.apply]
  | err x => simp [Layout.step, changeOf, hl]
  | panic => simp [Layout.step, changeOf, hl]
  | diverge => simp [Layout.step, changeOf, hl]

theorem Lay.listName_named {n : Str} {s : Sexp} : listName s = .ok n ↔ SectionNamed n s := by
  unfold SectionNamed listName
  split
  · simp
  · rename_i h
    constructor
    · intro h'; cases h'
    · rintro ⟨r, rfl⟩; exact absurd rfl (h n r)

/-- The name of the section a change comes from. -/
def Lay.Change.Of (n : Str) : Change F → Prop
  | .version _ => n = str! "version"
  | .host _ => n = str! "host"
  | .general _ => n = str! "general"
  | .page _ => n = str! "page"
  | .layers _ => n = str! "layers"
  | .setup _ => n = str! "setup"
  | .push _ => n ∉ boardHeader

theorem Lay.changeOf_name {e : Sexp} {c : Change F} (h : changeOf e = .ok c) :
    ∃ n, SectionNamed n e ∧ c.Of n := by
  unfold changeOf at h
  rw [Res.bind_eq_ok] at h
  obtain ⟨n, hn, h⟩ := h
  refine ⟨n, listName_named.1 hn, ?_⟩
  repeat' (first
    | (split at h
       · rename_i hh; subst hh; simp only [Res.bind_eq_ok, Res.ok.injEq] at h; obtain ⟨v, _, rfl⟩ := h; rfl))
  simp only [Res.bind_eq_ok, Res.ok.injEq] at h
  obtain ⟨v, _, rfl⟩ := h
  simp_all [Change.Of, boardHeader]

theorem Lay.fill_last {α : Type} (n : Str) (g : Layout F → α) (means : Sexp → α → Prop)
    (hset : ∀ l l' e, SectionNamed n e → Layout.step l e = .ok l' → means e (g l'))
    (hkeep : ∀ l l' e, ¬ SectionNamed n e → Layout.step l e = .ok l' → g l' = g l)
    (cs : List Sexp) : ∀ (l l' : Layout F), Layout.fill l cs = .ok l' → LastOf n means (g l) cs (g l') := by
  induction cs with
  | nil =>
    intro l l' h
    simp only [Layout.fill, Res.ok.injEq] at h
    subst h
    exact .inl ⟨by simp, rfl⟩
  | cons c cs ih =>
    intro l l' h
    simp only [Layout.fill, Res.bind_eq_ok] at h
    obtain ⟨l1, h1, h2⟩ := h
    rcases ih _ _ h2 with ⟨hno, hg⟩ | ⟨a, d, b, rfl, h3, h4, h5⟩
    · by_cases hc : SectionNamed n c
      · exact .inr ⟨[], c, cs, rfl, hc, hno, hg ▸ hset _ _ _ hc h1⟩
      · exact .inl ⟨by simpa [hc] using hno, by rw [hg, hkeep _ _ _ hc h1]⟩
    · exact .inr ⟨c :: a, d, b, rfl, h3, h4, h5⟩

theorem Lay.iter_ok {n : Str} {s : Sexp} {i : List Sexp} (h : iter n s = .ok i) : s = .list (.str n :: i) := by
  unfold iter at h
  split at h
  · split at h
    · rename_i hh; cases h; rw [hh]
    · cases h
  · cases h

theorem Lay.eat_cons {α : Type} {dec : Sexp → Res α} {i r : List Sexp} {a : α} (h : eat dec i = .ok (a, r)) :
    ∃ x, i = x :: r ∧ dec x = .ok a := by
  cases i with
  | nil => cases h
  | cons x i =>
    simp only [eat, Res.bind_eq_ok, Res.ok.injEq, Prod.mk.injEq] at h
    obtain ⟨b, hb, rfl, rfl⟩ := h
    exact ⟨x, rfl, hb⟩

theorem Lay.close_nil {α : Type} {r : List Sexp} {a b : α} (h : close r a = .ok b) : r = [] ∧ a = b := by
  cases r with
  | nil => cases h; exact ⟨rfl, rfl⟩
  | cons x r => cases h

theorem Lay.string_ok {x : Sexp} {w : Str} (h : string x = .ok w) : x = .str w := by
  cases x <;> simp [string] at h
  rw [h]

/-- The header of a board: for each of the six header sections, the last section
with that name counts and the stated default is used if there is none. -/
theorem C72_header (cs : List Sexp) (l : Layout F)
    (h : Layout.de (.list (.str (str! "kicad_pcb") :: cs)) = .ok l) :
    LastOf (str! "page") (fun c v => c = .list [.str (str! "page"), .str v]) (str! "A4") cs l.page ∧
    LastOf (str! "host") (fun c v => c = .list [.str (str! "host"), .str v.tool, .str v.build])
      ⟨str! "pcbnew", str! "custom"⟩ cs l.host ∧
    LastOf (str! "version") (fun c v => ∃ w, c = .list [.str (str! "version"), .str w] ∧ i64FromStr w = some v) 4
      cs l.version ∧
    LastOf (str! "general") (fun c v => General.de c = .ok v) ⟨0, 0, ⟨zero, zero, zero, zero⟩, lit 16 1, 0, 0, 0, 0, 0⟩
      cs l.general ∧
    LastOf (str! "layers") (fun c v => LayerVec.de c = .ok v) [] cs l.layers ∧
    LastOf (str! "setup") (fun c v => Setup.de c = .ok v) ⟨[], []⟩ cs l.setup := by
  have hf : Layout.fill Layout.dflt cs = .ok l := by simpa [Layout.de, iter] using h
  have key : ∀ {α : Type} (n : Str) (g : Layout F → α) (means : Sexp → α → Prop),
      (∀ l c u, Change.Of (F := F) n u → changeOf c = .ok u → SectionNamed n c → means c (g (u.apply l))) →
      (∀ l (u : Change F) n', Change.Of n' u → n' ≠ n → g (u.apply l) = g l) →
      LastOf n means (g Layout.dflt) cs (g l) := by
    intro α n g means h1 h2
    refine fill_last n g means ?_ ?_ cs _ _ hf
    · intro l l' e hn hs
      rw [step_change, Res.bind_eq_ok] at hs
      obtain ⟨u, hu, hs⟩ := hs
      cases hs
      obtain ⟨n', hn', ho⟩ := changeOf_name hu
      obtain ⟨r, rfl⟩ := hn
      obtain ⟨r', hr⟩ := hn'
      cases hr
      exact h1 _ _ _ ho hu ⟨_, rfl⟩
    · intro l l' e hn hs
      rw [step_change, Res.bind_eq_ok] at hs
      obtain ⟨u, hu, hs⟩ := hs
      cases hs
      obtain ⟨n', hn', ho⟩ := changeOf_name hu
      exact h2 _ _ _ ho fun hh => hn (hh ▸ hn')
  have one : ∀ {α : Type} {n : Str} {dec : Sexp → Res α} {c : Sexp} {v : α}, single n dec c = .ok v →
      ∃ x, c = .list [.str n, x] ∧ dec x = .ok v := by
    intro α n dec c v hs
    simp only [single, Res.bind_eq_ok] at hs
    obtain ⟨i, hi, ⟨a, i'⟩, he, hc⟩ := hs
    obtain ⟨rfl, rfl⟩ := close_nil hc
    obtain ⟨x, rfl, hx⟩ := eat_cons he
    exact ⟨x, iter_ok hi, hx⟩
  refine ⟨key _ (·.page) _ ?_ ?_, key _ (·.host) _ ?_ ?_, key _ (·.version) _ ?_ ?_, key _ (·.general) _ ?_ ?_,
    key _ (·.layers) _ ?_ ?_, key _ (·.setup) _ ?_ ?_⟩
  all_goals first
    | (intro l u n' ho hne
       cases u <;> first | rfl | exact absurd ho hne)
    | skip
  all_goals
    intro l c u ho hu hn
    obtain ⟨r, rfl⟩ := hn
    simp [changeOf, listName] at hu
    simp only [Res.bind_eq_ok, Res.ok.injEq] at hu
    obtain ⟨v, hv, rfl⟩ := hu
  · obtain ⟨x, hx, hd⟩ := one hv
    cases x <;> simp [string] at hd
    subst hd
    exact hx
  · simp only [Host.de, Res.bind_eq_ok] at hv
    obtain ⟨i, hi, ⟨a, i'⟩, ha, ⟨b, i''⟩, hb, hc⟩ := hv
    obtain ⟨rfl, rfl⟩ := close_nil hc
    obtain ⟨x, rfl, hx⟩ := eat_cons ha
    obtain ⟨y, rfl, hy⟩ := eat_cons hb
    rw [iter_ok hi, string_ok hx, string_ok hy]
    rfl
  · obtain ⟨x, hx, hd⟩ := one hv
    cases x <;> simp [int] at hd
    rename_i w
    refine ⟨w, hx, ?_⟩
    cases hi : i64FromStr w <;> simp [hi] at hd
    subst hd; rfl
  · exact hv
  · exact hv
  · exact hv

/-- A header section may be anywhere: exchanging it with a neighbour of another
name does not change what is read. -/
theorem C72_order (a b : List Sexp) (c c' : Sexp) (n n' : Str) (hn : SectionNamed n c) (hn' : SectionNamed n' c')
    (hh : n ∈ boardHeader) (hne : n ≠ n') (l : Layout F) :
    Layout.de (.list (.str (str! "kicad_pcb") :: (a ++ c :: c' :: b))) = .ok l ↔
    Layout.de (.list (.str (str! "kicad_pcb") :: (a ++ c' :: c :: b))) = .ok l := by
  have comm : ∀ (u u' : Change F), u.Of n → u'.Of n' → ∀ l : Layout F, u'.apply (u.apply l) = u.apply (u'.apply l) := by
    intro u u' hu hu' l
    cases u <;> cases u' <;> first
      | rfl
      | exact absurd (Eq.trans hu (Eq.symm hu')) hne
      | exact absurd hh hu
  have nm : ∀ {m c} {u : Change F}, SectionNamed m c → changeOf c = .ok u → u.Of m := by
    intro m c u hm hu
    obtain ⟨m', hm', ho⟩ := changeOf_name hu
    obtain ⟨r, rfl⟩ := hm
    obtain ⟨r', hr⟩ := hm'
    cases hr
    exact ho
  have main : ∀ (c c' : Sexp), (∀ u u', changeOf c = .ok u → changeOf c' = .ok u' → ∀ l : Layout F,
      Change.apply (u.apply l) u' = Change.apply (u'.apply l) u) → ∀ b (l0 : Layout F),
      Layout.fill l0 (c :: c' :: b) = .ok l → Layout.fill l0 (c' :: c :: b) = .ok l := by
    intro c c' hc b l0 hf
    simp only [Layout.fill, step_change, Res.bind_eq_ok, Res.ok.injEq] at hf ⊢
    obtain ⟨_, ⟨u, hu, rfl⟩, _, ⟨u', hu', rfl⟩, hf⟩ := hf
    refine ⟨_, ⟨u', hu', rfl⟩, _, ⟨u, hu, rfl⟩, ?_⟩
    rw [← hc u u' hu hu']
    exact hf
  have both : ∀ l0 : Layout F, Layout.fill l0 (a ++ c :: c' :: b) = .ok l ↔ Layout.fill l0 (a ++ c' :: c :: b) = .ok l := by
    induction a with
    | nil =>
      intro l0
      exact ⟨main c c' (fun u u' hu hu' l => comm u u' (nm hn hu) (nm hn' hu') l) b l0,
        main c' c (fun u u' hu hu' l => (comm u' u (nm hn hu') (nm hn' hu) l).symm) b l0⟩
    | cons d a ih =>
      intro l0
      simp only [List.cons_append, Layout.fill, Res.bind_eq_ok, ih]
  simpa [Layout.de, iter] using both Layout.dflt

/-- Two page sections, the header after the net, and nothing about the host. -/
example : (Lay.parse (str! "(kicad_pcb (page A3) (net 1 GND) (page A2) (version 7))") : Res (Layout Nm)) =
    .ok { Layout.dflt with version := 7, page := str! "A2", elements := [.net ⟨1, str! "GND"⟩] } := rfl

example : (Lay.parse (str! "(kicad_pcb (net 1 GND))") : Res (Layout Nm)) =
    .ok ⟨4, ⟨str! "pcbnew", str! "custom"⟩, ⟨0, 0, ⟨⟨0⟩, ⟨0⟩, ⟨0⟩, ⟨0⟩⟩, ⟨1600000⟩, 0, 0, 0, 0, 0⟩, str! "A4", ⟨[], []⟩, [],
      [.net ⟨1, str! "GND"⟩]⟩ := rfl

end Verif

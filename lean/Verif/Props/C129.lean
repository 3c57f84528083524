import Verif.Props.C01
import Verif.Props.C10
import Verif.Props.C116
/-!
# C129: sheets that are used several times

A file that several sheets name is collected once for each of them, each time as the same components.
That gives every reference in it several owners, and makes the number of components grow with a power of
the number of levels: the bound is given and shown to be reached.  Editing every file edits every
component collected.
-/

namespace Verif
open Flt Sch Spec

set_option linter.unusedSectionVars false

variable {F : Type} [Flt F]

namespace Shared

/-- `1 + k + k² + …`, `n` terms. -/
def geo (k n : Nat) : Nat := ((List.range n).map (k ^ ·)).sum

theorem geo_zero (k : Nat) : geo k 0 = 0 := rfl

theorem geo_succ (k n : Nat) : geo k (n + 1) = 1 + k * geo k n := by
  have h : ∀ l : List Nat, (l.map fun x => k ^ (x + 1)).sum = k * (l.map (k ^ ·)).sum := by
    intro l
    induction l with
    | nil => rfl
    | cons a l ih => simp only [List.map_cons, List.sum_cons, ih]; rw [Nat.mul_add, Nat.pow_succ, Nat.mul_comm]
  simp only [geo, List.range_succ_eq_map, List.map_cons, List.sum_cons, List.map_map, Nat.pow_zero]
  have := h (List.range n)
  simp only [Function.comp_def, Nat.succ_eq_add_one]
  rw [this]

theorem geo_two (n : Nat) : geo 2 n + 1 = 2 ^ n := by
  induction n with
  | zero => rfl
  | succ n ih => rw [geo_succ, Nat.pow_succ, ← ih]; omega

/-- The name of a file of the tower below. -/
def fileName (i : Nat) : Str := List.replicate (i + 1) 'a'

/-- A sheet naming such a file. -/
def sheetFor (i : Nat) : Sheet := { Sheet.dflt with unique := str! "5A", filename := fileName i }

/-- A schematic with `c` components and, unless it is the lowest one, `k` sheets that all name the
next lower file. -/
def level (F : Type) (c k : Nat) : Nat → Schematic F
  | 0 => { (Schematic.dflt : Schematic F) with
      filename := some (fileName 0)
      description := { Description.dflt with size := str! "A4" }
      elements := List.replicate c (.component Component.dflt)
      eelayer := str! "EELAYER 25 0" }
  | i + 1 => { (Schematic.dflt : Schematic F) with
      filename := some (fileName (i + 1))
      description := { Description.dflt with size := str! "A4" }
      elements := List.replicate c (.component Component.dflt)
      sheets := List.replicate k (sheetFor i)
      eelayer := str! "EELAYER 25 0" }

/-- `n` files, one for each level. -/
def tower (F : Type) [Flt F] (c k n : Nat) : World where
  read f := if f = fileName (f.length - 1) ∧ f.length ≤ n then some (level F c k (f.length - 1)).show else none
  resolve _ f := some f

theorem fits (c k i : Nat) : FitsSchematic (level F c k i) := by
  have hc : ∀ e ∈ List.replicate c (Element.component (Component.dflt : Component F)), FitsElement e := by
    intro e he
    rw [List.eq_of_mem_replicate he]
    refine ⟨?_, ?_, ?_, Or.inl rfl, ?_, ?_, ?_, ?_, ?_⟩
    · show Word (str! "DUMMY"); decide
    · show LastWord (str! "U1"); decide
    · show OneLine []; decide
    · show inI64 0; decide
    · show inI64 0; decide
    · intro a h; cases h
    · intro a h; cases h
    · show inI64 0 ∧ inI64 0 ∧ inI64 0 ∧ inI64 0; decide
  have hd : FitsDescription { Description.dflt with size := str! "A4" } := by decide
  cases i with
  | zero =>
    refine ⟨fun l h => (List.not_mem_nil h).elim, ?_, ?_, hd, hc, fun e h => (List.not_mem_nil h).elim⟩
    · show OneLine (str! "EELAYER 25 0"); decide
    · show startsWith (str! "EELAYER 25 0") _ = true; decide
  | succ i =>
    refine ⟨fun l h => (List.not_mem_nil h).elim, ?_, ?_, hd, hc, ?_⟩
    · show OneLine (str! "EELAYER 25 0"); decide
    · show startsWith (str! "EELAYER 25 0") _ = true; decide
    · intro e he
      rw [List.eq_of_mem_replicate he]
      have hq : Quotable (fileName i) :=
        ⟨fun h => absurd (List.eq_of_mem_replicate h) (by decide),
          fun h => absurd (List.eq_of_mem_replicate h) (by decide)⟩
      have h0 : inI64 0 := by decide
      have h60 : inI64 60 := by decide
      refine ⟨h0, h0, h0, h0, ?_, ?_, h60, hq, h60, fun l h => (List.not_mem_nil h).elim, ?_⟩
      · show LastWord (str! "5A"); decide
      · show Quotable (str! "DUMMY"); decide
      · show 0 < 2147483646; decide

theorem level_filename (c k i : Nat) : (level F c k i).filename = some (fileName i) := by
  cases i <;> rfl

theorem level_components (c k i : Nat) : (level F c k i).components.length = c := by
  have : ∀ c : Nat, ((List.replicate c (Element.component (Component.dflt : Component F))).filterMap
      Element.component?).length = c := by
    intro c
    induction c with
    | zero => rfl
    | succ c ih =>
      rw [List.replicate_succ, List.filterMap_cons]
      simp only [Element.component?, List.length_cons]
      exact congrArg (· + 1) ih
  cases i <;> exact this c

theorem read_level [TextLaws F] (c k n i : Nat) (h : i < n) :
    (parseFile (tower F c k n) (fileName i) : Res (Schematic F)) = .ok (level F c k i) := by
  have hl : (fileName i).length = i + 1 := List.length_replicate
  simp only [parseFile, tower, hl, Nat.add_sub_cancel]
  rw [if_pos ⟨trivial, h⟩]
  simp only
  rw [C01_roundtrip_named _ (fits c k i), ← level_filename (F := F) c k i]

theorem sheet_level [TextLaws F] (c k n i : Nat) (h : i < n) :
    parseFileForSheet (tower F c k n) (level F c k (i + 1)) (sheetFor i) = .ok (level F c k i) :=
  read_level c k n i h

theorem collect_level [TextLaws F] (c k n : Nat) : ∀ i, i ≤ n →
    ∃ v, allComponents (tower F c k n) (i + 1) (level F c k i) = .ok v ∧ v.length = c * geo k (i + 1)
  | 0, _ => by
    refine ⟨(level F c k 0).components, rfl, ?_⟩
    rw [level_components, geo_succ, geo_zero]
    simp
  | i + 1, h => by
    obtain ⟨u, h1, h2⟩ := collect_level c k n i (Nat.le_of_succ_le h)
    have key : ∀ (j : Nat) (v : List (Component F)), ∃ r,
        sheetsComponents (fun sheet => do
          let sub ← parseFileForSheet (tower F c k n) (level F c k (i + 1)) sheet
          allComponents (tower F c k n) (i + 1) sub) (List.replicate j (sheetFor i)) v = .ok r ∧
        r.length = v.length + j * u.length := by
      intro j
      induction j with
      | zero => intro v; exact ⟨v, rfl, by simp⟩
      | succ j ih =>
        intro v
        obtain ⟨r, h3, h4⟩ := ih (v ++ u)
        refine ⟨r, ?_, ?_⟩
        · rw [List.replicate_succ, sheetsComponents]
          have : (parseFileForSheet (tower F c k n) (level F c k (i + 1)) (sheetFor i) : Res (Schematic F)) =
              .ok (level F c k i) := read_level c k n i h
          rw [this]
          simp only [Res.bind_ok, h1]
          exact h3
        · rw [h4, List.length_append, Nat.add_mul]; omega
    obtain ⟨r, h3, h4⟩ := key k (level F c k (i + 1)).components
    refine ⟨r, h3, ?_⟩
    rw [h4, level_components, h2, geo_succ k (i + 1), Nat.mul_add, Nat.mul_one, Nat.mul_left_comm]

theorem modify_components (fn : Component F → Component F) (s : Schematic F) :
    (s.modifyComponents fn).components = s.components.map fn := by
  simp only [Schematic.components, Schematic.modifyComponents]
  induction s.elements with
  | nil => rfl
  | cons e es ih => cases e <;> simp [Element.modify, Element.component?, List.filterMap_cons, ih]

theorem forall_split {α β : Type} {R : α → β → Prop} : ∀ {a b : List α} {v : List β}, List.Forall₂ R (a ++ b) v →
    ∃ va vb, List.Forall₂ R a va ∧ List.Forall₂ R b vb ∧ v = va ++ vb
  | [], _, v, h => ⟨[], v, .nil, h, rfl⟩
  | _ :: _, _, _, .cons h hs => by
    obtain ⟨va, vb, h1, h2, rfl⟩ := forall_split hs
    exact ⟨_ :: va, vb, .cons h h1, h2, rfl⟩

end Shared

/-! ### Copies -/

mutual
/-- The files determine what is below a schematic. -/
theorem C129_unique (w : World) : ∀ h h' : Hier F, Stored w h → Stored w h' → h.root = h'.root → h = h'
  | .node s subs, .node s' subs', h1, h2, h3 => by
    have h3 : s = s' := h3
    subst h3
    rw [Shared.unique_all w s s.sheets subs subs' h1 h2]
theorem Shared.unique_all (w : World) (s : Schematic F) : ∀ (l : List Sheet) (hs hs' : List (Hier F)),
    StoredAll w s l hs → StoredAll w s l hs' → hs = hs'
  | [], [], [], _, _ => rfl
  | x :: l, h :: hs, h' :: hs', ⟨h1, h2, h3⟩, ⟨h4, h5, h6⟩ => by
    rw [C129_unique w h h' h2 h5 (Res.ok.inj (h1.symm.trans h4)), Shared.unique_all w s l hs hs' h3 h6]
end

/-- Two sheets naming the same file contribute the same components, one after the other. -/
theorem C129_copies (w : World) (s : Schematic F) (n : Nat) (v : List (Component F)) (a b c : List Sheet) (x y : Sheet)
    (hs : s.sheets = a ++ x :: b ++ y :: c) (hxy : x.filename = y.filename)
    (hv : allComponents w (n + 1) s = .ok v) :
    ∃ (t : Schematic F) (u p q r : List (Component F)), parseFileForSheet w s x = .ok t ∧ allComponents w n t = .ok u ∧
      v = p ++ u ++ q ++ u ++ r := by
  rw [allComponents] at hv
  obtain ⟨vs, h1, h2⟩ := sheetsComponents_ok hv
  rw [hs, List.append_assoc] at h1
  obtain ⟨va, vb, ha, h1, e1⟩ := Shared.forall_split h1
  obtain ⟨u, vc, hx, h1, e2⟩ := List.forall₂_cons_left_iff.1 h1
  obtain ⟨vd, ve, hb, h1, e3⟩ := Shared.forall_split h1
  obtain ⟨u', vf, hy, h1, e4⟩ := List.forall₂_cons_left_iff.1 h1
  obtain ⟨t, ht, hu⟩ := Res.bind_eq_ok.1 hx
  obtain ⟨t', ht', hu'⟩ := Res.bind_eq_ok.1 hy
  have h5 : (parseFileForSheet w s y : Res (Schematic F)) = parseFileForSheet w s x := by
    simp only [parseFileForSheet, filenameForSheet, hxy]
  rw [h5, ht] at ht'
  cases ht'
  rw [hu] at hu'
  cases hu'
  refine ⟨t, u, s.components ++ va.flatten, vd.flatten, vf.flatten, ht, hu, ?_⟩
  rw [h2, e1, e2, e3, e4]
  simp [List.append_assoc]

/-- So a reference in a file that is used twice has two owners. -/
theorem C129_references (w : World) (s t : Schematic F) (n : Nat) (v : List (Component F)) (a b c : List Sheet) (x y : Sheet)
    (hs : s.sheets = a ++ x :: b ++ y :: c) (hxy : x.filename = y.filename)
    (hv : allComponents w (n + 1) s = .ok v) (ht : parseFileForSheet w s x = .ok t) (hc : t.components ≠ []) :
    ¬ (v.map (·.reference)).Nodup := by
  obtain ⟨t', u, p, q, r, h1, h2, rfl⟩ := C129_copies w s n v a b c x y hs hxy hv
  rw [ht] at h1
  cases h1
  intro hn
  have hu : u ≠ [] := by
    cases n with
    | zero => cases h2
    | succ n =>
      rw [allComponents] at h2
      obtain ⟨vs, _, h3⟩ := sheetsComponents_ok h2
      rw [h3]
      simp [hc]
  obtain ⟨d, u, rfl⟩ := List.exists_cons_of_ne_nil hu
  simp only [List.map_append, List.map_cons, List.append_assoc, List.cons_append] at hn
  have h3 := (List.nodup_append.1 hn).2.1
  have h4 := (List.nodup_cons.1 h3).1
  exact h4 (by simp)

/-! ### Sizes -/

/-- With at most `c` components and `k` sheets in every file, `n` levels have at most `c (1 + k + … )`
components, `n` terms. -/
theorem C129_bound (w : World) (c k n : Nat) (s : Schematic F) (v : List (Component F))
    (h : ∀ t, t = s ∨ Below w s t → t.components.length ≤ c ∧ t.sheets.length ≤ k)
    (hv : allComponents w n s = .ok v) : v.length ≤ c * ((List.range n).map (k ^ ·)).sum := by
  show v.length ≤ c * Shared.geo k n
  induction n generalizing s v with
  | zero => cases hv
  | succ n ih =>
    rw [allComponents] at hv
    obtain ⟨vs, h1, rfl⟩ := sheetsComponents_ok hv
    have key : ∀ (l : List Sheet) (vs : List (List (Component F))), (∀ x ∈ l, x ∈ s.sheets) →
        List.Forall₂ (fun sheet v => (parseFileForSheet w s sheet >>= fun sub => allComponents w n sub) = .ok v) l vs →
        vs.flatten.length ≤ l.length * (c * Shared.geo k n) := by
      intro l vs hl h2
      induction h2 with
      | nil => simp
      | @cons x u l us hx _ ih2 =>
        rw [List.forall_mem_cons] at hl
        obtain ⟨t, ht, hu⟩ := Res.bind_eq_ok.1 hx
        have hb : SubSheet w s t := ⟨x, hl.1, ht⟩
        have h3 := ih t u (fun t' ht' => h t' (by
          rcases ht' with rfl | ht'
          · exact Or.inr (.one hb)
          · exact Or.inr (.more hb ht'))) hu
        have h4 := ih2 hl.2
        rw [List.flatten_cons, List.length_append, List.length_cons, Nat.add_mul]
        omega
    have h2 := key s.sheets vs (fun _ hx => hx) h1
    have h3 := h s (Or.inl rfl)
    have h4 := Nat.mul_le_mul_right (c * Shared.geo k n) h3.2
    rw [List.length_append, Shared.geo_succ, Nat.mul_add, Nat.mul_one, Nat.mul_left_comm]
    omega

/-- The bound is reached, for all numbers, with as many files as there are levels below the top. -/
theorem C129_bound_reached [TextLaws F] (c k n : Nat) : ∃ (w : World) (s : Schematic F) (v : List (Component F)),
    (∃ files : List Str, files.length = n ∧ ∀ f, w.read f ≠ none → f ∈ files) ∧
    s.components.length = c ∧ s.sheets.length ≤ k ∧
    (∀ f t, parseFile w f = .ok t → t.components.length = c ∧ (t : Schematic F).sheets.length ≤ k) ∧
    allComponents w (n + 1) s = .ok v ∧ v.length = c * ((List.range (n + 1)).map (k ^ ·)).sum := by
  obtain ⟨v, h1, h2⟩ := Shared.collect_level (F := F) c k n n (Nat.le_refl _)
  have hk : ∀ i, (Shared.level F c k i).sheets.length ≤ k := by
    intro i
    cases i with
    | zero => exact Nat.zero_le _
    | succ i => exact Nat.le_of_eq List.length_replicate
  refine ⟨Shared.tower F c k n, Shared.level F c k n, v, ⟨(List.range n).map Shared.fileName, by simp, ?_⟩,
    Shared.level_components c k n, hk n, ?_, h1, h2⟩
  · intro f hf
    simp only [Shared.tower] at hf
    by_cases hc : f = Shared.fileName (f.length - 1) ∧ f.length ≤ n
    · refine List.mem_map.2 ⟨f.length - 1, List.mem_range.2 ?_, hc.1.symm⟩
      have : f.length ≠ 0 := by
        intro h0
        have := congrArg List.length hc.1
        simp [Shared.fileName] at this
        omega
      omega
    · rw [if_neg hc] at hf
      exact absurd rfl hf
  · intro f t ht
    have h3 : ∃ i, i < n ∧ f = Shared.fileName i := by
      simp only [parseFile, Shared.tower] at ht
      by_cases hc : f = Shared.fileName (f.length - 1) ∧ f.length ≤ n
      · refine ⟨f.length - 1, ?_, hc.1⟩
        have : f.length ≠ 0 := by
          intro h0
          have := congrArg List.length hc.1
          simp [Shared.fileName] at this
          omega
        omega
      · rw [if_neg hc] at ht
        cases ht
    obtain ⟨i, hi, rfl⟩ := h3
    rw [Shared.read_level c k n i hi] at ht
    cases ht
    exact ⟨Shared.level_components c k i, hk i⟩

/-- With two sheets and one component in each file, `n` files below the top already give
`2 ^ (n + 1) - 1` components. -/
theorem C129_doubling [TextLaws F] (n : Nat) : ∃ (w : World) (s : Schematic F) (v : List (Component F)),
    (∃ files : List Str, files.length = n ∧ ∀ f, w.read f ≠ none → f ∈ files) ∧
    allComponents w (n + 1) s = .ok v ∧ v.length + 1 = 2 ^ (n + 1) := by
  obtain ⟨w, s, v, h1, _, _, _, h2, h3⟩ := C129_bound_reached (F := F) 1 2 n
  refine ⟨w, s, v, h1, h2, ?_⟩
  rw [h3, Nat.one_mul]
  exact Shared.geo_two (n + 1)

/-! ### Editing -/

/-- `w'` is what the files are after every file that sheets of `s` lead to was read, its components were
modified, and it was saved. -/
def Spec.Rewritten (fn : Component F → Component F) (w w' : World) (s : Schematic F) : Prop :=
  w'.resolve = w.resolve ∧ ∀ p, NamesFile w s p → ∃ t : Schematic F, parseFile w p = .ok t ∧
    FitsSchematic (t.modifyComponents fn) ∧ w'.read p = some (t.modifyComponents fn).show

/-- Editing the components of every file edits every component that is collected, and nothing else. -/
theorem C129_edit_everywhere [TextLaws F] (fn : Component F → Component F) (w w' : World) (n : Nat) (s : Schematic F)
    (h : Rewritten fn w w' s) :
    allComponents w' n (s.modifyComponents fn) = (allComponents w n s).map (List.map fn) := by
  induction n generalizing s with
  | zero => rfl
  | succ n ih =>
    have hp : ∀ x ∈ s.sheets, parseFileForSheet w' (s.modifyComponents fn) x =
        (parseFileForSheet w s x).map fun t : Schematic F => t.modifyComponents fn := by
      intro x hx
      have e1 : filenameForSheet w' (s.modifyComponents fn) x = filenameForSheet w s x := by
        simp only [filenameForSheet, h.1]; rfl
      simp only [parseFileForSheet, e1]
      cases hf : filenameForSheet w s x with
      | ok p =>
        obtain ⟨t, h1, h2, h3⟩ := h.2 p (.here hx hf)
        have h4 : t.filename = some p := by
          simp only [parseFile] at h1
          cases hr : w.read p with
          | none => rw [hr] at h1; cases h1
          | some b => rw [hr] at h1; exact Spec.parse_filename h1
        have h5 : ({ t.modifyComponents fn with filename := some p } : Schematic F) = t.modifyComponents fn := by
          rw [← h4]; rfl
        simp only [Res.bind_ok, h1, Res.map_ok]
        simp only [parseFile, h3]
        rw [C01_roundtrip_named _ h2, h5]
      | _ => rfl
    have key : ∀ (l : List Sheet) (v : List (Component F)), (∀ x ∈ l, x ∈ s.sheets) →
        sheetsComponents (fun sheet => do
          let sub ← parseFileForSheet w' (s.modifyComponents fn) sheet
          allComponents w' n sub) l (v.map fn) =
        (sheetsComponents (fun sheet => do
          let sub ← parseFileForSheet w s sheet
          allComponents w n sub) l v).map (List.map fn) := by
      intro l
      induction l with
      | nil => intro v _; rfl
      | cons x l ihl =>
        intro v hl
        rw [List.forall_mem_cons] at hl
        rw [sheetsComponents, sheetsComponents, hp x hl.1]
        cases hq : (parseFileForSheet w s x : Res (Schematic F)) with
        | ok t =>
          have h6 : Rewritten fn w w' t := ⟨h.1, fun p hp => h.2 p (.further ⟨x, hl.1, hq⟩ hp)⟩
          simp only [Res.bind_ok, Res.map_ok, ih t h6]
          cases allComponents w n t with
          | ok v2 =>
            simp only [Res.bind_ok, Res.map_ok]
            rw [← List.map_append]
            exact ihl _ hl.2
          | _ => rfl
        | _ => rfl
    have := key s.sheets s.components fun _ hx => hx
    rw [← Shared.modify_components] at this
    exact this

/-! ### Cases -/

/-- A schematic with two sheets naming the same file, which has one component. -/
example : ∃ (w : World) (s t : Schematic Nm) (n : Nat) (v : List (Component Nm)) (a b c : List Sheet) (x y : Sheet),
    s.sheets = a ++ x :: b ++ y :: c ∧ x.filename = y.filename ∧ allComponents w (n + 1) s = .ok v ∧
    parseFileForSheet w s x = .ok t ∧ t.components ≠ [] ∧ v.length = 3 := by
  obtain ⟨v, h1, h2⟩ := Shared.collect_level (F := Nm) 1 2 1 1 (Nat.le_refl _)
  refine ⟨Shared.tower Nm 1 2 1, Shared.level Nm 1 2 1, Shared.level Nm 1 2 0, 1, v, [], [], [], Shared.sheetFor 0,
    Shared.sheetFor 0, rfl, rfl, h1, Shared.sheet_level 1 2 1 0 (by decide), ?_, h2⟩
  intro h
  have := Shared.level_components (F := Nm) 1 2 0
  rw [h] at this
  cases this

/-- The same files with every component moved to another place. -/
example : ∃ (fn : Component Nm → Component Nm) (w w' : World) (s : Schematic Nm), Rewritten fn w w' s ∧
    s.sheets ≠ [] ∧ s.modifyComponents fn ≠ s := by
  refine ⟨fun c => { c with x := 5 }, Shared.tower Nm 1 2 1,
    ⟨fun f => if f = Shared.fileName 0 then
      some ((Shared.level Nm 1 2 0).modifyComponents fun c => { c with x := 5 }).show else none, fun _ f => some f⟩,
    Shared.level Nm 1 2 1, ⟨rfl, ?_⟩, by decide, by decide⟩
  have hs : ∀ x ∈ (Shared.level Nm 1 2 1).sheets, x = Shared.sheetFor 0 := fun x hx => List.eq_of_mem_replicate hx
  have hr := Shared.read_level (F := Nm) 1 2 1 0 (by decide)
  intro p hp
  have : p = Shared.fileName 0 := by
    cases hp with
    | here hx hf => rw [hs _ hx] at hf; exact (Res.ok.inj hf).symm
    | further ht hq =>
      obtain ⟨x, hx, ht⟩ := ht
      rw [hs _ hx] at ht
      have h1 : (parseFileForSheet (Shared.tower Nm 1 2 1) (Shared.level Nm 1 2 1) (Shared.sheetFor 0) :
        Res (Schematic Nm)) = .ok (Shared.level Nm 1 2 0) := Shared.sheet_level 1 2 1 0 (by decide)
      rw [h1] at ht
      cases ht
      cases hq with
      | here hx _ => exact (List.not_mem_nil hx).elim
      | further ht _ => obtain ⟨x, hx, _⟩ := ht; exact (List.not_mem_nil hx).elim
  subst this
  refine ⟨_, hr, by decide +kernel, ?_⟩
  dsimp only
  rw [if_pos rfl]

/-- Two different sheets of the same schematic, below which there is the same. -/
example : ∃ (w : World) (h : Hier Nm), Stored w h ∧ 2 ≤ h.depth := by
  obtain ⟨v, h1, _⟩ := Shared.collect_level (F := Nm) 1 2 1 1 (Nat.le_refl _)
  obtain ⟨h, hr, hst, _, _⟩ := Spec.hier_of_all _ _ _ _ h1
  refine ⟨_, h, hst, ?_⟩
  obtain ⟨s, subs⟩ := h
  have hr : s = Shared.level Nm 1 2 1 := hr
  subst hr
  cases subs with
  | nil => exact hst.elim
  | cons k ks =>
    obtain ⟨t, us⟩ := k
    have : 1 ≤ (Hier.node t us).depth := Nat.succ_le_succ (Nat.zero_le _)
    exact Nat.succ_le_succ (Nat.le_trans this (Nat.le_max_left _ _))

end Verif

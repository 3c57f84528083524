import Verif.Spec.Order
import Verif.Props.C60
import Verif.Props.C61
import Verif.Props.C42
import Verif.Props.C41
import Verif.Basic.Nm
import Verif.Lemmas.Rounding
/-!
# C99: the order of edits that are about different things does not matter
-/

namespace Verif
open Flt Spec

set_option linter.unusedSectionVars false

variable {F : Type} [Flt F]

/-! ## Sequences of steps -/

/-- Steps that can change places pairwise can be made in any order. -/
theorem Order.perm_fold {S A : Type} (step : S → A → S) (P : S → Prop) (R : A → A → Prop)
    (hR : ∀ x y, R x y → R y x) (comm : ∀ x y s, R x y → P s → step (step s x) y = step (step s y) x)
    {l l' : List A} (hl : l.Perm l') (hp : ∀ x ∈ l, ∀ s, P s → P (step s x)) (hw : l.Pairwise R) (s : S) (hs : P s) :
    l.foldl step s = l'.foldl step s := by
  induction hl generalizing s with
  | nil => rfl
  | cons x _ ih =>
    rw [List.pairwise_cons] at hw
    exact ih (fun y hy => hp y (List.mem_cons_of_mem _ hy)) hw.2 _ (hp x (by simp) s hs)
  | swap x y l =>
    rw [List.pairwise_cons] at hw
    simp only [List.foldl_cons]
    rw [comm y x s (hw.1 x (by simp)) hs]
  | trans h1 h2 ih1 ih2 =>
    rw [ih1 hp hw s hs]
    exact ih2 (fun x hx => hp x (h1.mem_iff.2 hx)) ((h1.pairwise_iff (fun h => hR _ _ h)).1 hw) s hs

/-- Renaming twice, in the two orders. -/
theorem Order.rename_comm {a b c d : Str} (h : Apart a b c d) (n : Str) :
    Lay.rename (Lay.rename n a b) c d = Lay.rename (Lay.rename n c d) a b := by
  unfold Lay.rename
  rcases h with h | h | ⟨h, h'⟩ | ⟨h1, h2, h3⟩
  · subst h
    by_cases h : n = a <;> by_cases h' : n = c <;> simp_all
  · subst h
    by_cases h : n = a <;> by_cases h' : n = c <;> simp_all
  · subst h; subst h'; rfl
  · by_cases h : n = a
    · subst h; simp [h1, h2]
    · by_cases h' : n = c
      · subst h'; simp [h, h3]
      · simp [h, h']

/-- ... and only then. -/
theorem Order.apart_of_comm {a b c d : Str}
    (h : ∀ n, n = a ∨ n = c → Lay.rename (Lay.rename n a b) c d = Lay.rename (Lay.rename n c d) a b) : Apart a b c d := by
  unfold Lay.rename at h
  unfold Apart
  by_cases h1 : a = b
  · exact .inl h1
  by_cases h2 : c = d
  · exact .inr (.inl h2)
  have ha := h a (.inl rfl)
  have hc := h c (.inr rfl)
  by_cases h3 : a = c
  · subst h3
    have h1' : ¬ b = a := fun h => h1 h.symm
    have h2' : ¬ d = a := fun h => h2 h.symm
    simp only [if_true, if_neg h1', if_neg h2'] at ha
    exact .inr (.inr (.inl ⟨rfl, ha⟩))
  · have h3' : ¬ c = a := fun h => h3 h.symm
    refine .inr (.inr (.inr ⟨h3, ?_, ?_⟩))
    · rintro rfl
      simp only [if_true, if_neg h3] at ha
      exact h2 ha.symm
    · rintro rfl
      simp only [if_true, if_neg h3'] at hc
      exact h1 hc

theorem Spec.Apart.symm {a b c d : Str} (h : Apart a b c d) : Apart c d a b := by
  rcases h with h | h | ⟨h, h'⟩ | ⟨h1, h2, h3⟩
  · exact .inr (.inl h)
  · exact .inl h
  · exact .inr (.inr (.inl ⟨h.symm, h'.symm⟩))
  · exact .inr (.inr (.inr ⟨h1.symm, h3, h2⟩))

/-! ## Footprints -/

theorem Order.padName (p : Fp.Pad F) (a b : Str) :
    p.renameNet a b = { p with net := p.net.map fun n => { n with name := Lay.rename n.name a b } } := by
  unfold Fp.Pad.renameNet Lay.rename
  cases p.net with
  | none => rfl
  | some n => simp only [Option.map_some]; split <;> simp_all

theorem Order.setReferenceElem_eq (a b : Str) (e : Fp.Elem F) : Fp.Module.setReferenceElem a b e =
    match e with
    | .text t => .text { t with value := if t.name = str! "reference" then Lay.rename t.value a b else t.value }
    | e => e := by
  cases e with
  | text t =>
    simp only [Fp.Module.setReferenceElem, Lay.rename]
    obtain ⟨n, v, _, _, _, _⟩ := t
    by_cases h1 : n = str! "reference"
    · by_cases h2 : v = a
      · simp only [h1, h2, and_self, if_true]
      · simp only [h2, and_false, if_false, ite_self]
    · simp only [h1, false_and, if_false]
  | _ => rfl

/-- What the plain calls do to one element. -/
def Order.elemRun : FpEdit F → Fp.Elem F → Fp.Elem F
  | .flip => Fp.Elem.flip
  | .rotate a => Fp.Elem.rotate a
  | .move x y => Fp.Module.adjustElem x y
  | .setReference a b => Fp.Module.setReferenceElem a b
  | .renameNet a b => Fp.Module.renameNetElem a b
  | _ => id

theorem Order.run_elems (e : FpEdit F) (h : e.part ≠ none) (m : Fp.Module F) :
    e.run m = { m with elements := m.elements.map (elemRun e) } := by
  cases e <;> first | rfl | exact absurd rfl h

theorem Order.elem_comm {e f : FpEdit F} (h : e.Free f) (x : Fp.Elem F) :
    elemRun f (elemRun e x) = elemRun e (elemRun f x) := by
  rcases h with ⟨p, q, hp, hq, h⟩ | ⟨a, b, c, d, rfl, rfl, h⟩ | ⟨a, b, c, d, rfl, rfl, h⟩
  · cases e <;> cases hp <;> cases f <;> cases hq <;>
      first
        | (exfalso; simp only [Facet.Disjoint, ne_eq, not_true_eq_false] at h; done)
        | (cases x <;> first | rfl | (simp only [elemRun, Order.setReferenceElem_eq]; rfl) )
  · cases x <;> try rfl
    simp only [elemRun, Fp.Module.renameNetElem, Order.padName, Option.map_map]
    congr 2
    congr 1
    funext n
    simp only [Function.comp, Order.rename_comm h]
  · cases x <;> try rfl
    simp only [elemRun, Order.setReferenceElem_eq]
    congr 2
    split
    · exact Order.rename_comm h _
    · rfl

theorem Spec.FpEdit.Free.symm {e f : FpEdit F} (h : e.Free f) : f.Free e := by
  rcases h with ⟨p, q, hp, hq, h⟩ | ⟨a, b, c, d, rfl, rfl, h⟩ | ⟨a, b, c, d, rfl, rfl, h⟩
  · refine .inl ⟨q, p, hq, hp, ?_⟩
    cases p <;> cases q <;> simp_all [Facet.Disjoint]
  · exact .inr (.inl ⟨c, d, a, b, rfl, rfl, h.symm⟩)
  · exact .inr (.inr ⟨c, d, a, b, rfl, rfl, h.symm⟩)

theorem Spec.FpEdit.Free.plain {e f : FpEdit F} (h : e.Free f) : e.part ≠ none ∧ f.part ≠ none := by
  rcases h with ⟨p, q, hp, hq, h⟩ | ⟨a, b, c, d, rfl, rfl, h⟩ | ⟨a, b, c, d, rfl, rfl, h⟩
  · rw [hp, hq]; simp
  · simp [FpEdit.part]
  · simp [FpEdit.part]

/-- Two calls on a footprint that are about different parts, or rename different names, can
be made in either order: moving, rotating, renaming nets, changing the designator; flipping
and one of the last two. -/
theorem C99_footprint_pair (e f : FpEdit F) (h : e.Free f) (m : Fp.Module F) :
    f.run (e.run m) = e.run (f.run m) := by
  rw [Order.run_elems e h.plain.1, Order.run_elems f h.plain.2, Order.run_elems f h.plain.2, Order.run_elems e h.plain.1]
  simp only [List.map_map]
  congr 1
  exact List.map_congr_left fun x _ => Order.elem_comm h x

/-- A session of such calls can be made in any order. -/
theorem C99_footprint_sessions (es fs : List (FpEdit F)) (hp : es.Perm fs) (h : es.Pairwise FpEdit.Free)
    (m : Fp.Module F) : runFp es m = runFp fs m := by
  unfold runFp
  exact Order.perm_fold (fun (m : Fp.Module F) (e : FpEdit F) => e.run m) (fun _ => True) FpEdit.Free (fun _ _ h => h.symm)
    (fun e f m h _ => C99_footprint_pair e f h m) hp (fun _ _ _ _ => trivial) h m trivial

/-- A footprint with two pads on the nets `a` and `c`. -/
def Order.twoPads (a c : Str) : Fp.Module F :=
  let p : Fp.Pad F := { (Fp.Pad.new [] .smd .rect : Fp.Pad F) with net := some ⟨1, a⟩ }
  ⟨[], [.pad p, .pad { p with net := some ⟨2, c⟩ }]⟩

/-- Renaming one net and renaming another can change places in all footprints exactly if one
of them changes nothing, or they are the same, or the old name of neither is a name of
the other. -/
theorem C99_renames (a b c d : Str) :
    (∀ m : Fp.Module F, (m.renameNet a b).renameNet c d = (m.renameNet c d).renameNet a b) ↔ Apart a b c d := by
  constructor
  · intro h
    apply Order.apart_of_comm
    intro n hn
    have := h (Order.twoPads a c)
    simp only [Order.twoPads, Fp.Module.renameNet, Fp.Module.renameNetElem, Order.padName, List.map_cons, List.map_nil,
      Option.map_some, Fp.Module.mk.injEq, List.cons.injEq, Fp.Elem.pad.injEq, Fp.Pad.mk.injEq, Option.some.injEq,
      Fp.Net.mk.injEq] at this
    rcases hn with rfl | rfl
    · exact this.2.1.2.2.2.2.2.2.2.1.2
    · exact this.2.2.1.2.2.2.2.2.2.2.1.2
  · intro h m
    exact C99_footprint_pair (.renameNet a b) (.renameNet c d) (.inr (.inl ⟨_, _, _, _, rfl, rfl, h⟩)) m

/-- Moving and flipping cannot change places: the flip turns the move around. -/
theorem C99_flip_move (m : Fp.Module F) (x y : F) (h : ∀ a b : F, neg (add a b) = add (neg a) (neg b)) :
    (m.adjust x y).flip = m.flip.adjust x (neg y) := by
  simp only [Fp.Module.adjust, Fp.Module.flip, List.map_map]
  congr 1
  refine List.map_congr_left fun e _ => ?_
  cases e <;> try rfl
  simp [Fp.Module.adjustElem, Fp.Elem.flip, Fp.At.flip, h]

/-- This is so for 64-bit floating point numbers, whose rounding is symmetric. -/
theorem C99_flip_move_f64 (m : Fp.Module Fl) (x y : Fl) : (m.adjust x y).flip = m.flip.adjust x (neg y) := by
  refine C99_flip_move m x y fun a b => Fl.ext_val ?_
  rw [Fl.neg_val]
  show -Fp64.round64 (a.val + b.val) = Fp64.round64 ((neg a).val + (neg b).val)
  rw [Fl.neg_val, Fl.neg_val, ← neg_add, Fp64.round64_neg]

/-! ## Boards -/

/-- `modify_module` on the list of elements, a failing call changing nothing. -/
def Order.modify (r : Str) (f : Fp.Module F → Fp.Module F) (es : List (Lay.Elem F)) : List (Lay.Elem F) :=
  (Lay.modifyModuleIn r f es).getD es

/-- The element is no module. -/
def Order.Plain (e : Lay.Elem F) : Prop := ∀ m, e ≠ .module_ m

theorem Order.modify_nil (r : Str) (f : Fp.Module F → Fp.Module F) : modify r f [] = [] := rfl

theorem Order.modify_module (r : Str) (f : Fp.Module F → Fp.Module F) (m : Fp.Module F) (es : List (Lay.Elem F)) :
    modify r f (.module_ m :: es) =
      if m.isReferenceWithName r then .module_ (f m) :: es else .module_ m :: modify r f es := by
  unfold modify
  rw [Lay.modifyModuleIn]
  split
  · rfl
  · cases Lay.modifyModuleIn r f es <;> rfl

theorem Order.modify_plain (r : Str) (f : Fp.Module F → Fp.Module F) (e : Lay.Elem F) (he : Plain e)
    (es : List (Lay.Elem F)) : modify r f (e :: es) = e :: modify r f es := by
  unfold modify
  cases e with
  | module_ m => exact absurd rfl (he m)
  | _ =>
    rw [Lay.modifyModuleIn]
    · cases Lay.modifyModuleIn r f es <;> rfl
    · intro m h; cases h

theorem Order.elem_cases (e : Lay.Elem F) : (∃ m, e = .module_ m) ∨ Plain e := by
  by_cases h : ∃ m, e = .module_ m
  · exact .inl h
  · exact .inr fun m hm => h ⟨m, hm⟩

/-- Changing one module and changing all elements, in the two orders. -/
theorem Order.modify_map (r : Str) (f g : Fp.Module F → Fp.Module F) (h : Lay.Elem F → Lay.Elem F)
    (hm : ∀ m, h (.module_ m) = .module_ (g m)) (hp : ∀ e, Plain e → Plain (h e))
    (hr : ∀ m, (g m).isReferenceWithName r = m.isReferenceWithName r) (hc : ∀ m, f (g m) = g (f m))
    (es : List (Lay.Elem F)) : modify r f (es.map h) = (modify r f es).map h := by
  induction es with
  | nil => rfl
  | cons e es ih =>
    rcases elem_cases e with ⟨m, rfl⟩ | he
    · rw [List.map_cons, hm, modify_module, modify_module, hr]
      split
      · rw [List.map_cons, hm, hc]
      · rw [List.map_cons, hm, ih]
    · rw [List.map_cons, modify_plain r f _ (hp e he), modify_plain r f _ he, List.map_cons, ih]

theorem Order.modify_append (r : Str) (f : Fp.Module F → Fp.Module F) (e : Lay.Elem F) (he : Plain e)
    (es : List (Lay.Elem F)) : modify r f (es ++ [e]) = modify r f es ++ [e] := by
  induction es with
  | nil => rw [List.nil_append, modify_plain r f e he]; rfl
  | cons x es ih =>
    rcases elem_cases x with ⟨m, rfl⟩ | hx
    · rw [List.cons_append, modify_module, modify_module]
      split
      · rfl
      · rw [ih]; rfl
    · rw [List.cons_append, modify_plain r f _ hx, modify_plain r f _ hx, ih]; rfl

theorem Order.modify_modify (r r' : Str) (f g : Fp.Module F → Fp.Module F)
    (hf : ∀ m s, (f m).isReferenceWithName s = m.isReferenceWithName s)
    (hg : ∀ m s, (g m).isReferenceWithName s = m.isReferenceWithName s)
    (es : List (Lay.Elem F))
    (hc : ∀ m, Lay.Elem.module_ m ∈ es → m.isReferenceWithName r = true → m.isReferenceWithName r' = true → f (g m) = g (f m)) :
    modify r f (modify r' g es) = modify r' g (modify r f es) := by
  induction es with
  | nil => rfl
  | cons e es ih =>
    have ih := ih fun m hm => hc m (List.mem_cons_of_mem _ hm)
    rcases elem_cases e with ⟨m, rfl⟩ | he
    · have hc := hc m (List.mem_cons_self ..)
      rw [modify_module, modify_module]
      by_cases h1 : m.isReferenceWithName r = true <;> by_cases h2 : m.isReferenceWithName r' = true
      · rw [if_pos h1, if_pos h2, modify_module, modify_module, hg, hf, if_pos h1, if_pos h2, hc h1 h2]
      · rw [if_pos h1, if_neg h2, modify_module, modify_module, hf, if_pos h1, if_neg h2]
      · rw [if_neg h1, if_pos h2, modify_module, modify_module, hg, if_neg h1, if_pos h2]
      · rw [if_neg h1, if_neg h2, modify_module, modify_module, if_neg h1, if_neg h2, ih]
    · rw [modify_plain r' g e he, modify_plain r f e he, modify_plain r f e he, modify_plain r' g e he, ih]

/-- A call that leaves designators alone. -/
theorem Order.keeps_one (e : FpEdit F) (h : e.KeepsReference) (m : Fp.Module F) (s : Str) :
    (e.run m).isReferenceWithName s = m.isReferenceWithName s := by
  have hp : e.part ≠ none := by cases e <;> simp_all [FpEdit.part, FpEdit.KeepsReference]
  rw [run_elems e hp]
  simp only [Fp.Module.isReferenceWithName, List.any_map]
  congr 1
  funext x
  cases e <;> first | exact absurd h id | (cases x <;> rfl)

theorem Order.keeps (es : List (FpEdit F)) (h : ∀ e ∈ es, e.KeepsReference) (m : Fp.Module F) (s : Str) :
    (runFp es m).isReferenceWithName s = m.isReferenceWithName s := by
  induction es generalizing m with
  | nil => rfl
  | cons e es ih =>
    rw [List.forall_mem_cons] at h
    show (runFp es (e.run m)).isReferenceWithName s = _
    rw [ih h.2, keeps_one e h.1]

theorem Order.runFp_one (es : List (FpEdit F)) (f : FpEdit F) (h : ∀ e ∈ es, e.Free f) (m : Fp.Module F) :
    runFp es (f.run m) = f.run (runFp es m) := by
  induction es generalizing m with
  | nil => rfl
  | cons e es ih =>
    rw [List.forall_mem_cons] at h
    show runFp es (e.run (f.run m)) = f.run (runFp es (e.run m))
    rw [← C99_footprint_pair e f h.1, ih h.2]

theorem Order.runFp_runFp (es fs : List (FpEdit F)) (h : ∀ e ∈ es, ∀ f ∈ fs, e.Free f) (m : Fp.Module F) :
    runFp es (runFp fs m) = runFp fs (runFp es m) := by
  induction fs generalizing m with
  | nil => rfl
  | cons f fs ih =>
    show runFp es (runFp fs (f.run m)) = runFp fs (f.run (runFp es m))
    rw [ih (fun e he g hg => h e he g (List.mem_cons_of_mem _ hg)), runFp_one es f fun e he => h e he f (List.mem_cons_self ..)]

/-- One call on a board; a failing call changes nothing. -/
def Order.attempt (l : Lay.Layout F) (e : BoardEdit F) : Lay.Layout F :=
  match e.run l with
  | .ok l' => l'
  | _ => l

theorem Order.runBoard_eq (es : List (BoardEdit F)) (l : Lay.Layout F) : runBoard es l = .ok (es.foldl attempt l) := by
  induction es generalizing l with
  | nil => rfl
  | cons e es ih =>
    obtain ⟨l', hl⟩ := C60_edits_return [e] l
    rw [List.foldl_cons, ← ih, attempt]
    simp only [runBoard] at hl ⊢
    cases hr : e.run l <;> rw [hr] at hl <;> first | rfl | (cases hl; done)

/-- What a call does to the elements. -/
def Order.onElems : BoardEdit F → List (Lay.Elem F) → List (Lay.Elem F)
  | .move x y => List.map (Lay.Elem.adjust x y)
  | .renameNet a b => List.map (Lay.renamed a b)
  | .addNet n name => fun es => es ++ [.net ⟨n, name⟩]
  | .addNetclass nc => fun es => es ++ [.netClass nc]
  | .setSetup _ _ => id
  | .editModule r es => modify r (runFp es)
  | .append e => fun es => es ++ [e]

/-- What a call does to the setup. -/
def Order.onSetup : BoardEdit F → Lay.Setup → Lay.Setup
  | .setSetup n v => fun s => s.updateElement n v
  | _ => id

theorem Order.attempt_eq (l : Lay.Layout F) (e : BoardEdit F) :
    attempt l e = { l with elements := onElems e l.elements, setup := onSetup e l.setup } := by
  cases e with
  | editModule r es =>
    simp only [attempt, BoardEdit.run, Lay.Layout.modifyModule, onElems, onSetup, modify]
    cases Lay.modifyModuleIn r (runFp es) l.elements <;> rfl
  | renameNet a b => simp only [attempt, BoardEdit.run, Lay.changeNetName_eq, onElems, onSetup, id]
  | _ => rfl

theorem Order.renamed_comm {a b c d : Str} (h : Apart a b c d) (e : Lay.Elem F) :
    Lay.renamed c d (Lay.renamed a b e) = Lay.renamed a b (Lay.renamed c d e) := by
  cases e <;> try rfl
  · rename_i m
    simp only [Lay.renamed]
    congr 1
    exact (C99_renames a b c d).2 h m
  · simp only [Lay.renamed, rename_comm h]
  · simp only [Lay.renamed, List.map_map]
    congr 2
    exact List.map_congr_left fun n _ => rename_comm h n
  · simp only [Lay.renamed, rename_comm h]

theorem Order.move_renamed (x y : F) (a b : Str) (e : Lay.Elem F) :
    Lay.renamed a b (e.adjust x y) = (Lay.renamed a b e).adjust x y := by
  cases e <;> try rfl
  rename_i m
  simp only [Lay.renamed, Lay.Elem.adjust]
  congr 1
  exact C99_footprint_pair (.move x y) (.renameNet a b) (.inl ⟨.place, .nets, rfl, rfl, by simp [Facet.Disjoint]⟩) m

theorem Order.free_comm (e f : BoardEdit F) (h : e.FreeOf f) (l : Lay.Layout F) (hl : OneReference l) :
    onElems f (onElems e l.elements) = onElems e (onElems f l.elements) ∧
    onSetup f (onSetup e l.setup) = onSetup e (onSetup f l.setup) := by
  have hplain : ∀ (n : Fp.Net), Plain (.net n : Lay.Elem F) := fun n m h => by cases h
  have hplain' : ∀ n, Plain (.netClass n : Lay.Elem F) := fun n m h => by cases h
  cases e with
  | move x y =>
    cases f <;> first | exact absurd h id | skip
    · simp only [onElems, List.map_map]
      exact ⟨List.map_congr_left fun e _ => move_renamed x y _ _ e, rfl⟩
    · exact ⟨by simp [onElems, Lay.Elem.adjust], rfl⟩
    · exact ⟨by simp [onElems, Lay.Elem.adjust], rfl⟩
  | renameNet a b =>
    cases f <;> first | exact absurd h id | skip
    · simp only [onElems, List.map_map]
      exact ⟨List.map_congr_left fun e _ => renamed_comm h e, rfl⟩
    · rename_i n name
      have h : name ≠ a := h
      exact ⟨by simp [onElems, Lay.renamed, Lay.rename, h], rfl⟩
    · rename_i nc
      have h : a ∉ nc.nets := h
      have : nc.nets.map (fun n => Lay.rename n a b) = nc.nets := by
        refine (List.map_congr_left fun n hn => ?_).trans (List.map_id _)
        have : n ≠ a := fun h' => h (h' ▸ hn)
        simp [Lay.rename, this]
      exact ⟨by simp [onElems, Lay.renamed, this], rfl⟩
  | setSetup n v =>
    cases f with
    | setSetup n' v' => obtain ⟨rfl, rfl⟩ := h; exact ⟨rfl, rfl⟩
    | _ => exact ⟨rfl, rfl⟩
  | editModule r es =>
    cases f <;> first | exact absurd h id | skip
    · rename_i x y
      refine ⟨(modify_map r (runFp es) (fun m => m.adjust x y) _ (fun m => rfl) ?_ ?_ ?_ _).symm, rfl⟩
      · intro e he m
        cases e <;> simp [Lay.Elem.adjust]
        exact absurd rfl (he _)
      · intro m; exact keeps_one (.move x y) trivial m r
      · exact runFp_one es (.move x y) h
    · rename_i a b
      refine ⟨(modify_map r (runFp es) (fun m => m.renameNet a b) _ (fun m => rfl) ?_ ?_ ?_ _).symm, rfl⟩
      · intro e he m
        cases e <;> simp [Lay.renamed]
        exact absurd rfl (he _)
      · intro m; exact keeps_one (.renameNet a b) trivial m r
      · exact runFp_one es (.renameNet a b) h
    · exact ⟨(modify_append r _ _ (hplain _) _).symm, rfl⟩
    · exact ⟨(modify_append r _ _ (hplain' _) _).symm, rfl⟩
    · rename_i r' es'
      obtain ⟨h1, h2, h3⟩ := h
      refine ⟨(modify_modify r r' _ _ (keeps es h1) (keeps es' h2) _ fun m hm ha hb => ?_).symm, rfl⟩
      rcases h3 with h3 | h3
      · exact absurd (hl m hm r r' ha hb) h3
      · exact runFp_runFp es es' h3 m
  | addNet _ _ => exact absurd h id
  | addNetclass _ => exact absurd h id
  | append _ => exact absurd h id

theorem Order.fp_oneReference (e : FpEdit F) (he : e.part ≠ none) (m : Fp.Module F)
    (h : ∀ a b, HasReference a m → HasReference b m → a = b) :
    ∀ a b, HasReference a (e.run m) → HasReference b (e.run m) → a = b := by
  by_cases hk : e.KeepsReference
  · intro a b ha hb
    rw [← Lay.isReference_iff, keeps_one e hk, Lay.isReference_iff] at ha hb
    exact h a b ha hb
  · cases e <;> first | exact absurd trivial hk | exact absurd rfl he | skip
    rename_i x y
    have back : ∀ a, HasReference a (m.setReference x y) → ∃ v, HasReference v m ∧ a = Lay.rename v x y := by
      rintro a ⟨t, ht, hn, hv⟩
      simp only [Fp.Module.setReference, List.mem_map] at ht
      obtain ⟨e, he, ht⟩ := ht
      rw [setReferenceElem_eq] at ht
      cases e <;> simp at ht
      rename_i t'
      subst ht
      simp only at hn hv
      rw [if_pos hn] at hv
      exact ⟨t'.value, ⟨t', he, hn, rfl⟩, hv.symm⟩
    intro a b ha hb
    obtain ⟨v, hv, rfl⟩ := back a ha
    obtain ⟨w, hw, rfl⟩ := back b hb
    rw [h v w hv hw]

theorem Order.runFp_oneReference (es : List (FpEdit F)) (he : ∀ e ∈ es, e.part ≠ none) (m : Fp.Module F)
    (h : ∀ a b, HasReference a m → HasReference b m → a = b) :
    ∀ a b, HasReference a (runFp es m) → HasReference b (runFp es m) → a = b := by
  induction es generalizing m with
  | nil => exact h
  | cons e es ih =>
    rw [List.forall_mem_cons] at he
    exact ih he.2 _ (fp_oneReference e he.1 m h)

theorem Order.modify_mem (r : Str) (f : Fp.Module F → Fp.Module F) (es : List (Lay.Elem F)) (x : Lay.Elem F)
    (h : x ∈ modify r f es) : x ∈ es ∨ ∃ m, Lay.Elem.module_ m ∈ es ∧ x = .module_ (f m) := by
  induction es with
  | nil => exact .inl h
  | cons e es ih =>
    have up : (x ∈ es ∨ ∃ m, Lay.Elem.module_ m ∈ es ∧ x = .module_ (f m)) →
        (x ∈ e :: es ∨ ∃ m, Lay.Elem.module_ m ∈ e :: es ∧ x = .module_ (f m)) := by
      rintro (h | ⟨m, hm, h⟩)
      · exact .inl (List.mem_cons_of_mem _ h)
      · exact .inr ⟨m, List.mem_cons_of_mem _ hm, h⟩
    rcases elem_cases e with ⟨m, rfl⟩ | he
    · rw [modify_module] at h
      split at h
      · rcases List.mem_cons.1 h with h | h
        · exact .inr ⟨m, by simp, h⟩
        · exact .inl (List.mem_cons_of_mem _ h)
      · rcases List.mem_cons.1 h with h | h
        · exact .inl (by simp [h])
        · exact up (ih h)
    · rw [modify_plain r f e he] at h
      rcases List.mem_cons.1 h with h | h
      · exact .inl (by simp [h])
      · exact up (ih h)

theorem Order.modest (e : BoardEdit F) (he : e.Modest) (l : Lay.Layout F) (h : OneReference l) :
    OneReference (attempt l e) := by
  have h' : ∀ m, Lay.Elem.module_ m ∈ l.elements → ∀ a b, HasReference a m → HasReference b m → a = b := by
    intro m hm a b ha hb
    rw [← Lay.isReference_iff] at ha hb
    exact h m hm a b ha hb
  intro m hm a b ha hb
  rw [Lay.isReference_iff] at ha hb
  rw [attempt_eq] at hm
  simp only at hm
  cases e with
  | move x y =>
    simp only [onElems, List.mem_map] at hm
    obtain ⟨e, he, hm⟩ := hm
    cases e <;> simp [Lay.Elem.adjust] at hm
    rename_i m'
    subst hm
    exact fp_oneReference (.move x y) (by simp [FpEdit.part]) m' (h' m' he) a b ha hb
  | renameNet x y =>
    simp only [onElems, List.mem_map] at hm
    obtain ⟨e, he, hm⟩ := hm
    cases e <;> simp [Lay.renamed] at hm
    rename_i m'
    subst hm
    exact fp_oneReference (.renameNet x y) (by simp [FpEdit.part]) m' (h' m' he) a b ha hb
  | addNet _ _ =>
    simp [onElems] at hm
    exact h' m hm a b ha hb
  | addNetclass _ =>
    simp [onElems] at hm
    exact h' m hm a b ha hb
  | setSetup _ _ => exact h' m hm a b ha hb
  | editModule r es =>
    rcases modify_mem _ _ _ _ hm with hm | ⟨m', hm', hm⟩
    · exact h' m hm a b ha hb
    · cases hm
      exact runFp_oneReference es he m' (h' m' hm') a b ha hb
  | append _ => exact absurd he id

/-- Two calls on a board that are about different things can be made in either order. -/
theorem C99_board_pair (e f : BoardEdit F) (h : e.Free f) (l : Lay.Layout F) (hl : OneReference l) :
    runBoard [e, f] l = runBoard [f, e] l := by
  simp only [Order.runBoard_eq, List.foldl_cons, List.foldl_nil, Order.attempt_eq]
  rcases h with h | h
  · rw [(Order.free_comm e f h l hl).1, (Order.free_comm e f h l hl).2]
  · rw [(Order.free_comm f e h l hl).1, (Order.free_comm f e h l hl).2]

/-- A session of such calls (renaming nets, adding them, moving the board, changing the setup,
editing modules, none of which may get a second designator) can be made in any order. -/
theorem C99_board_sessions (es fs : List (BoardEdit F)) (hp : es.Perm fs) (h : es.Pairwise BoardEdit.Free)
    (hm : ∀ e ∈ es, e.Modest) (l : Lay.Layout F) (hl : OneReference l) : runBoard es l = runBoard fs l := by
  rw [Order.runBoard_eq, Order.runBoard_eq]
  congr 1
  refine Order.perm_fold Order.attempt OneReference BoardEdit.Free (fun _ _ h => h.symm) (fun e f l h hl => ?_) hp
    (fun e he l hl => Order.modest e (hm e he) l hl) h l hl
  have := C99_board_pair e f h l hl
  simpa only [Order.runBoard_eq, List.foldl_cons, List.foldl_nil, Res.ok.injEq] using this

/-- `Setup::update_element` on the list of entries. -/
def Order.entries (n v : Str) (es : List Lay.SetupElement) : List Lay.SetupElement :=
  match Lay.updateElementIn n v es with
  | some r => r
  | none => es ++ [⟨n, v, none⟩]

theorem Order.entries_cons (n v : Str) (e : Lay.SetupElement) (es : List Lay.SetupElement) :
    entries n v (e :: es) = if e.name = n then { e with value1 := v } :: es else e :: entries n v es := by
  unfold entries
  rw [Lay.updateElementIn]
  by_cases h : e.name = n
  · rw [if_pos h, if_pos h]
  · rw [if_neg h, if_neg h]
    cases Lay.updateElementIn n v es <;> rfl

theorem Order.updateElement_eq (s : Lay.Setup) (n v : Str) :
    s.updateElement n v = { s with elements := entries n v s.elements } := by
  unfold Lay.Setup.updateElement entries
  cases Lay.updateElementIn n v s.elements <;> rfl

theorem Order.entries_comm (n v n' v' : Str) (hn : n ≠ n') (es : List Lay.SetupElement) :
    entries n' v' (entries n v es) = entries n v (entries n' v' es) ↔ ∃ e ∈ es, e.name = n ∨ e.name = n' := by
  induction es with
  | nil =>
    have hn' : n' ≠ n := hn.symm
    simp [entries, Lay.updateElementIn, hn, hn']
  | cons e es ih =>
    rw [entries_cons, entries_cons]
    by_cases h1 : e.name = n
    · have h2 : e.name ≠ n' := fun h => hn (h1.symm.trans h)
      rw [if_pos h1, if_neg h2, entries_cons, entries_cons]
      rw [if_pos h1, if_neg (show ¬ ({ e with value1 := v } : Lay.SetupElement).name = n' from h2)]
      simp [h1]
    · by_cases h2 : e.name = n'
      · rw [if_neg h1, if_pos h2, entries_cons, entries_cons]
        simp only [h2, if_true]
        rw [if_neg (h2 ▸ h1)]
        simp [h2]
      · rw [if_neg h1, if_neg h2, entries_cons, entries_cons, if_neg h1, if_neg h2]
        simp [ih, h1, h2]

/-- Two different setup entries can be set in either order as far as `get` can tell, and the
order of the entries is the same as well if one of them existed before. -/
theorem C99_setup (s : Lay.Setup) (n v n' v' : Str) (hn : n ≠ n') :
    (∀ k, ((s.updateElement n v).updateElement n' v').get k = ((s.updateElement n' v').updateElement n v).get k) ∧
    (((s.updateElement n v).updateElement n' v' = (s.updateElement n' v').updateElement n v) ↔
      s.get n ≠ none ∨ s.get n' ≠ none) := by
  have hn' : n' ≠ n := hn.symm
  constructor
  · intro k
    by_cases h1 : k = n
    · subst h1
      rw [C41_get_other _ _ _ _ hn, C41_get_updated, C41_get_updated]
    · by_cases h2 : k = n'
      · subst h2
        rw [C41_get_updated, C41_get_other _ _ _ _ hn', C41_get_updated]
      · rw [C41_get_other _ _ _ _ h2, C41_get_other _ _ _ _ h1, C41_get_other _ _ _ _ h1, C41_get_other _ _ _ _ h2]
  · have hget : ∀ k, s.get k ≠ none ↔ ∃ e ∈ s.elements, e.name = k := by
      intro k
      simp [Lay.Setup.get]
    rw [hget, hget, ← exists_or]
    simp only [Order.updateElement_eq, Lay.Setup.mk.injEq, Order.entries_comm n v n' v' hn, and_true]
    constructor
    · rintro ⟨e, he, h | h⟩
      · exact ⟨e, .inl ⟨he, h⟩⟩
      · exact ⟨e, .inr ⟨he, h⟩⟩
    · rintro ⟨e, ⟨he, h⟩ | ⟨he, h⟩⟩
      · exact ⟨e, he, .inl h⟩
      · exact ⟨e, he, .inr h⟩

/-! ## Schematics -/

open Sch

/-- Only success and panic are possible. -/
def Order.OkOrPanic {A : Type} (x : Res A) : Prop := (∃ a, x = .ok a) ∨ x = .panic

theorem Order.swap {A B C : Type} {x : Res A} {y : Res B} (hx : OkOrPanic x) (hy : OkOrPanic y) (k : A → B → Res C) :
    (do let a ← x; let b ← y; k a b) = (do let b ← y; let a ← x; k a b) := by
  rcases hx with ⟨a, rfl⟩ | rfl <;> rcases hy with ⟨b, rfl⟩ | rfl <;> rfl

/-- What a call other than `add_or_update_field` does to one field. -/
def Order.onField : CompEdit F → Sch.Field F → Sch.Field F
  | .updateReference r, f => if f.i = 0 then { f with value := r } else f
  | .updateName n, f => if f.i = 1 then { f with value := n } else f
  | .updateField n v, f => f.updated n v
  | .addOrUpdateField .., f => f

/-- What a call does to the rest of the component. -/
def Order.onRest : CompEdit F → Component F → Component F
  | .updateReference r, c => { c with reference := r }
  | .updateName n, c => { c with name := n }
  | _, c => c

/-- Not `add_or_update_field`. -/
def Order.Simple : CompEdit F → Prop
  | .addOrUpdateField .. => False
  | _ => True

theorem Order.simple_run (e : CompEdit F) (h : Simple e) (c : Component F) :
    e.run c = .ok { onRest e c with fields := c.fields.map (onField e) } := by
  cases e <;> first | rfl | exact absurd h id

theorem Order.onField_keeps (e : CompEdit F) (f : Sch.Field F) : (onField e f).i = f.i ∧ (onField e f).name = f.name := by
  cases e with
  | updateReference r => simp only [onField]; split <;> exact ⟨rfl, rfl⟩
  | updateName r => simp only [onField]; split <;> exact ⟨rfl, rfl⟩
  | updateField n v => exact ⟨(Spec.setTo_updated n v f).1, (Spec.setTo_updated n v f).2.1⟩
  | addOrUpdateField => exact ⟨rfl, rfl⟩

theorem Order.updated_comm (n v n' v' : Str) (h : n ≠ n' ∨ v = v') (f : Sch.Field F) :
    (f.updated n v).updated n' v' = (f.updated n' v').updated n v := by
  have flat : ∀ (n v : Str) (f : Sch.Field F), f.updated n v =
      { f with value := if f.name = n then v else f.value, visible := if f.i > 1 then false else f.visible } := by
    intro n v f
    unfold Field.updated
    by_cases h1 : f.name = n <;> by_cases h3 : f.i > 1 <;> simp only [h1, h3, if_true, if_false]
  simp only [flat]
  congr 1
  by_cases h1 : f.name = n <;> by_cases h2 : f.name = n' <;> simp only [h1, h2, if_true, if_false]
  · rcases h with h | h
    · exact absurd (h1.symm.trans h2) h
    · subst h; simp
  · have : ¬ n = n' := fun h => h2 (h1.trans h)
    simp [this]
  · have : ¬ n' = n := fun h => h1 (h2.trans h)
    simp [this]

/-- Fields whose numbers 0 and 1 have the usual names. -/
def Order.Named (f : Sch.Field F) : Prop :=
  (f.i = 0 → f.name = str! "Reference") ∧ (f.i = 1 → f.name = str! "Value")

theorem Order.field_comm (e f : CompEdit F) (he : Simple e) (hf : Simple f) (h : e.FreeOf f) (x : Sch.Field F) (hx : Named x) :
    onField f (onField e x) = onField e (onField f x) := by
  cases e with
  | addOrUpdateField => exact absurd he id
  | updateReference r =>
    cases f with
    | addOrUpdateField => exact absurd hf id
    | updateReference r' => cases h; rfl
    | updateName n =>
      simp only [onField]
      by_cases h0 : x.i = 0
      · simp [h0]
      · by_cases h1 : x.i = 1 <;> simp [h0, h1]
    | updateField n v =>
      simp only [onField]
      by_cases h0 : x.i = 0
      · have hn : x.name ≠ n := by rw [hx.1 h0]; exact Ne.symm h
        simp [Field.updated, h0, hn]
      · have := onField_keeps (.updateField n v) x
        simp only [onField] at this
        simp [h0, this.1]
  | updateName r =>
    cases f with
    | addOrUpdateField => exact absurd hf id
    | updateReference r' => exact absurd h id
    | updateName n => cases h; rfl
    | updateField n v =>
      simp only [onField]
      by_cases h0 : x.i = 1
      · have hn : x.name ≠ n := by rw [hx.2 h0]; exact Ne.symm h
        simp [Field.updated, h0, hn]
      · have := onField_keeps (.updateField n v) x
        simp only [onField] at this
        simp [h0, this.1]
  | updateField n v =>
    cases f with
    | addOrUpdateField => exact absurd hf id
    | updateReference r' => exact absurd h id
    | updateName n => exact absurd h id
    | updateField n' v' => exact updated_comm n v n' v' h x

theorem Order.simple_comm (e f : CompEdit F) (he : Simple e) (hf : Simple f) (h : e.FreeOf f) (c : Component F)
    (hc : Standard c) : (e.run c >>= f.run) = (f.run c >>= e.run) := by
  rw [simple_run e he, simple_run f hf, Res.bind_ok, Res.bind_ok, simple_run f hf, simple_run e he]
  have : (c.fields.map (onField e)).map (onField f) = (c.fields.map (onField f)).map (onField e) := by
    rw [List.map_map, List.map_map]
    exact List.map_congr_left fun x hx => field_comm e f he hf h x (hc x hx)
  cases e <;> cases f <;> first | exact absurd he id | exact absurd hf id | exact absurd h id | skip
  all_goals simp only [onRest, this]
  · cases h; rfl
  · cases h; rfl

/-- The field that `add_new_field` adds. -/
def Order.added (c : Component F) (t : Sch.Field F) (n v : Str) : Sch.Field F :=
  Field.newFrom (maxFieldNum c.fields + 1) n v t.x t.y

theorem Order.add_run (c : Component F) (t : Sch.Field F) (n v : Str) :
    (CompEdit.addOrUpdateField t n v).run c =
      match c.getFieldValue n with
      | some old => if old = v then .ok c else .ok (c.updateField n v)
      | none => if maxFieldNum c.fields = 9223372036854775807 then .panic
                else .ok { c with fields := c.fields ++ [added c t n v] } := by
  simp only [CompEdit.run, Component.addOrUpdateField]
  cases c.getFieldValue n with
  | some old => simp only; split <;> rfl
  | none =>
    simp only [Component.addNewField, Component.getAvailableFieldNum]
    split <;> rfl

theorem Order.find_map (g : Sch.Field F → Sch.Field F) (n : Str) (l : List (Sch.Field F))
    (hg : ∀ f ∈ l, (g f).name = f.name ∧ (f.name = n → (g f).value = f.value)) :
    ((l.map g).find? fun f => f.name = n).map (·.value) = (l.find? fun f => f.name = n).map (·.value) := by
  induction l with
  | nil => rfl
  | cons f l ih =>
    rw [List.forall_mem_cons] at hg
    by_cases h : f.name = n
    · simp [hg.1.1, h, hg.1.2 h]
    · simpa [hg.1.1, h] using ih hg.2

theorem Order.max_map (g : Sch.Field F → Sch.Field F) (hg : ∀ f, (g f).i = f.i) (l : List (Sch.Field F)) :
    maxFieldNum (l.map g) = maxFieldNum l := by
  unfold maxFieldNum
  rw [List.foldl_map]
  simp only [hg]

theorem Order.max_large (c : Component F) (hx : Extensible c) : 3 ≤ maxFieldNum c.fields := by
  obtain ⟨f, hf, h⟩ := hx
  exact le_trans h ((Spec.maxFieldNum_foldl c.fields 0).2.1 f hf)

theorem Order.add_comm (e : CompEdit F) (he : Simple e) (t : Sch.Field F) (n v : Str)
    (h : e.FreeOf (.addOrUpdateField t n v)) (c : Component F) (hc : Standard c) (hx : Extensible c) :
    (e.run c >>= (CompEdit.addOrUpdateField t n v).run) = ((CompEdit.addOrUpdateField t n v).run c >>= e.run) := by
  have hsub : e.FreeOf (.updateField n v) := by
    cases e <;> first | exact absurd he id | exact h | exact .inl h
  have hval : ∀ f ∈ c.fields, f.name = n → (onField e f).value = f.value := by
    intro f hf hn
    cases e with
    | addOrUpdateField => exact absurd he id
    | updateReference r =>
      have : f.i ≠ 0 := fun h0 => h (hn.symm.trans ((hc f hf).1 h0))
      simp [onField, this]
    | updateName r =>
      have : f.i ≠ 1 := fun h0 => h (hn.symm.trans ((hc f hf).2 h0))
      simp [onField, this]
    | updateField n' v' =>
      have : f.name ≠ n' := fun h' => h (h'.symm.trans hn)
      simp only [onField, Field.updated, this, if_false]
      split <;> rfl
  have hcomm := simple_comm e (.updateField n v) he trivial hsub c hc
  rw [simple_run e he, Res.bind_ok, add_run, add_run]
  have hget : Component.getFieldValue { onRest e c with fields := c.fields.map (onField e) } n = c.getFieldValue n :=
    find_map (onField e) n c.fields fun f hf => ⟨(onField_keeps e f).2, hval f hf⟩
  rw [hget]
  cases c.getFieldValue n with
  | some old =>
    simp only
    split
    · rw [Res.bind_ok, simple_run e he]
    · rw [simple_run e he, Res.bind_ok] at hcomm
      exact hcomm
  | none =>
    simp only
    rw [max_map _ (fun f => (onField_keeps e f).1)]
    have h3 := max_large c hx
    split
    · rfl
    · rw [Res.bind_ok, simple_run e he]
      have hadd : onField e (added c t n v) = added c t n v := by
        cases e with
        | addOrUpdateField => exact absurd he id
        | updateReference r =>
          have : ¬ (added c t n v).i = 0 := by simp only [added, Field.newFrom]; omega
          simp [onField, this]
        | updateName r =>
          have : ¬ (added c t n v).i = 1 := by simp only [added, Field.newFrom]; omega
          simp [onField, this]
        | updateField n' v' =>
          have : (added c t n v).name ≠ n' := fun h' => h h'.symm
          simp only [onField, Field.updated, this, if_false]
          split <;> rfl
      have hadd' : added { onRest e c with fields := c.fields.map (onField e) } t n v = added c t n v := by
        simp only [added, max_map _ (fun f => (onField_keeps e f).1)]
      rw [hadd']
      cases e <;> first | exact absurd he id | simp only [onRest, List.map_append, List.map_cons, List.map_nil, hadd]

/-- Two calls on a component that are about different things can be made in either order. -/
theorem C99_component_pair (e f : CompEdit F) (h : e.Free f) (c : Component F) (hc : Standard c) (hx : Extensible c) :
    runComp [e, f] c = runComp [f, e] c := by
  have key : ∀ e f : CompEdit F, e.FreeOf f → (e.run c >>= f.run) = (f.run c >>= e.run) := by
    intro e f h
    by_cases he : Order.Simple e
    · by_cases hf : Order.Simple f
      · exact Order.simple_comm e f he hf h c hc
      · cases f <;> first | exact absurd trivial hf | skip
        exact Order.add_comm e he _ _ _ h c hc hx
    · cases e <;> first | exact absurd trivial he | exact absurd h id
  have h2 : ∀ e f : CompEdit F, runComp [e, f] c = (e.run c >>= f.run) := by
    intro e f
    simp only [runComp]
    cases e.run c with
    | ok c' => simp only [Res.bind_ok]; cases f.run c' <;> rfl
    | _ => rfl
  rw [h2, h2]
  rcases h with h | h
  · exact key e f h
  · exact (key f e h).symm

/-- Calls on a component keep the usual fields. -/
theorem Order.comp_inv (e : CompEdit F) (c c' : Component F) (h : e.run c = .ok c') (hs : Standard c ∧ Extensible c) :
    Standard c' ∧ Extensible c' := by
  obtain ⟨hs, hx⟩ := hs
  have hmap : ∀ (e : CompEdit F), Simple e → ∀ c', e.run c = .ok c' → Standard c' ∧ Extensible c' := by
    intro e he c' h
    rw [simple_run e he] at h
    cases h
    constructor
    · intro f hf
      obtain ⟨f', hf', rfl⟩ := List.mem_map.1 hf
      rw [(onField_keeps e f').1, (onField_keeps e f').2]
      exact hs f' hf'
    · obtain ⟨f, hf, h3⟩ := hx
      exact ⟨onField e f, List.mem_map.2 ⟨f, hf, rfl⟩, by rw [(onField_keeps e f).1]; exact h3⟩
  by_cases he : Simple e
  · exact hmap e he c' h
  cases e <;> first | exact absurd trivial he | skip
  rename_i t n v
  rw [add_run] at h
  cases hg : c.getFieldValue n with
  | some old =>
    rw [hg] at h
    simp only at h
    split at h
    · cases h; exact ⟨hs, hx⟩
    · exact hmap (.updateField n v) trivial c' h
  | none =>
    rw [hg] at h
    simp only at h
    split at h
    · cases h
    · cases h
      have h3 := max_large c hx
      constructor
      · intro f hf
        rcases List.mem_append.1 hf with hf | hf
        · exact hs f hf
        · rw [List.mem_singleton.1 hf]
          simp only [added, Field.newFrom]
          constructor <;> intro <;> omega
      · obtain ⟨f, hf, h3⟩ := hx
        exact ⟨f, List.mem_append_left _ hf, h3⟩

theorem Order.comp_ends (e : CompEdit F) (c : Component F) : OkOrPanic (e.run c) := by
  by_cases he : Simple e
  · exact .inl ⟨_, simple_run e he c⟩
  cases e <;> first | exact absurd trivial he | skip
  rw [add_run]
  split
  · split <;> exact .inl ⟨_, rfl⟩
  · split
    · exact .inr rfl
    · exact .inl ⟨_, rfl⟩

theorem Order.comp_keeps (e : CompEdit F) (he : e.KeepsReference) (c c' : Component F) (h : e.run c = .ok c') :
    c'.reference = c.reference := by
  by_cases hs : Simple e
  · rw [simple_run e hs] at h
    cases e <;> first | exact absurd he id | exact absurd hs id | (cases h; rfl)
  cases e <;> first | exact absurd trivial hs | skip
  rw [add_run] at h
  split at h <;> split at h <;> cases h <;> rfl

theorem Order.runComp_inv (es : List (CompEdit F)) (c c' : Component F) (h : runComp es c = .ok c')
    (hs : Standard c ∧ Extensible c) : Standard c' ∧ Extensible c' := by
  induction es generalizing c with
  | nil => cases h; exact hs
  | cons e es ih =>
    obtain ⟨c1, h1, h2⟩ := Res.bind_eq_ok.1 h
    exact ih c1 h2 (comp_inv e c c1 h1 hs)

theorem Order.runComp_ends (es : List (CompEdit F)) (c : Component F) : OkOrPanic (runComp es c) := by
  induction es generalizing c with
  | nil => exact .inl ⟨_, rfl⟩
  | cons e es ih =>
    rw [runComp]
    rcases comp_ends e c with ⟨c1, h1⟩ | h1
    · rw [h1]; exact ih c1
    · rw [h1]; exact .inr rfl

theorem Order.runComp_keeps (es : List (CompEdit F)) (he : ∀ e ∈ es, e.KeepsReference) (c c' : Component F)
    (h : runComp es c = .ok c') : c'.reference = c.reference := by
  induction es generalizing c with
  | nil => cases h; rfl
  | cons e es ih =>
    rw [List.forall_mem_cons] at he
    obtain ⟨c1, h1, h2⟩ := Res.bind_eq_ok.1 h
    rw [ih he.2 c1 h2, comp_keeps e he.1 c c1 h1]

/-- A session of calls on a component that are about different things can be made in any
order. -/
theorem C99_component_sessions (es fs : List (CompEdit F)) (hp : es.Perm fs) (h : es.Pairwise CompEdit.Free)
    (c : Component F) (hc : Standard c) (hx : Extensible c) : runComp es c = runComp fs c := by
  have hfold : ∀ (es : List (CompEdit F)) (r : Res (Component F)),
      (r >>= runComp es) = es.foldl (fun r e => r >>= e.run) r := by
    intro es
    induction es with
    | nil => intro r; cases r <;> rfl
    | cons e es ih =>
      intro r
      rw [List.foldl_cons, ← ih]
      cases r <;> rfl
  have := Order.perm_fold (fun (r : Res (Component F)) (e : CompEdit F) => r >>= e.run)
    (fun r => ∀ c, r = .ok c → Standard c ∧ Extensible c) CompEdit.Free (fun _ _ h => h.symm)
    (fun e f r h hr => ?_) hp (fun e _ r hr c' hc' => ?_) h (.ok c) (fun c' hc' => by cases hc'; exact ⟨hc, hx⟩)
  · rw [← hfold, ← hfold] at this
    exact this
  · cases r with
    | ok c =>
      have := C99_component_pair e f h c (hr c rfl).1 (hr c rfl).2
      simp only [runComp, Res.bind_ok] at this ⊢
      have tidy : ∀ (x : Res (Component F)), (x >>= fun a => .ok a) = x := fun x => by cases x <;> rfl
      simpa only [tidy] using this
    | _ => rfl
  · obtain ⟨c1, h1, h2⟩ := Res.bind_eq_ok.1 hc'
    exact Order.comp_inv e c1 c' h2 (hr c1 h1)

/-- Changing the first component with a reference by a call that may panic. -/
def Order.modR (r : Str) (f : Component F → Res (Component F)) : List (Element F) → Res (List (Element F))
  | [] => .ok []
  | .component c :: t =>
    if c.reference = r then do let c' ← f c; .ok (.component c' :: t)
    else do let t' ← modR r f t; .ok (.component c :: t')
  | e :: t => do let t' ← modR r f t; .ok (e :: t')

/-- The element is no component. -/
def Order.Other (e : Element F) : Prop := ∀ c, e ≠ .component c

theorem Order.modR_other (r : Str) (f : Component F → Res (Component F)) (e : Element F) (he : Other e) (t : List (Element F)) :
    modR r f (e :: t) = (do let t' ← modR r f t; .ok (e :: t')) := by
  cases e with
  | component c => exact absurd rfl (he c)
  | _ => rfl

theorem Order.modR_hit (r : Str) (f : Component F → Res (Component F)) (c : Component F) (h : c.reference = r)
    (t : List (Element F)) : modR r f (.component c :: t) = (f c >>= fun c' => .ok (.component c' :: t)) := by
  rw [modR, if_pos h]

theorem Order.modR_miss (r : Str) (f : Component F → Res (Component F)) (c : Component F) (h : c.reference ≠ r)
    (t : List (Element F)) : modR r f (.component c :: t) = (modR r f t >>= fun t' => .ok (.component c :: t')) := by
  rw [modR, if_neg h]

theorem Order.element_cases (e : Element F) : (∃ c, e = .component c) ∨ Other e := by
  by_cases h : ∃ c, e = .component c
  · exact .inl h
  · exact .inr fun c hc => h ⟨c, hc⟩

theorem Order.modR_run (r : Str) (es : List (CompEdit F)) (s : Schematic F) :
    (SchEdit.editComponent r es).run s = (do let t ← modR r (runComp es) s.elements; .ok { s with elements := t }) := by
  have key : ∀ l : List (Element F),
      modR r (runComp es) l = match (l.filterMap Element.component?).find? fun c => c.reference = r with
        | none => .ok l
        | some c => runComp es c >>= fun c' => .ok (modifyFirst r (fun _ => c') l) := by
    intro l
    induction l with
    | nil => rfl
    | cons e l ih =>
      rcases element_cases e with ⟨c, rfl⟩ | he
      · simp only [modR, List.filterMap_cons, Element.component?]
        by_cases h : c.reference = r
        · simp [h, modifyFirst]
        · simp only [h, if_false]
          rw [List.find?_cons_of_neg (by simpa using h), ih]
          cases (l.filterMap Element.component?).find? fun c => c.reference = r with
          | none => rfl
          | some d =>
            simp only [Res.bind_assoc, Res.bind_ok, modifyFirst, h, if_false]
      · rw [modR_other r _ e he, ih]
        have h0 : Element.component? e = none := by cases e <;> first | rfl | exact absurd rfl (he _)
        rw [List.filterMap_cons, h0]
        simp only
        cases (l.filterMap Element.component?).find? fun c => c.reference = r with
        | none => rfl
        | some d =>
          simp only [Res.bind_assoc, Res.bind_ok]
          congr 1
          funext c'
          cases e <;> first | rfl | exact absurd rfl (he _)
  simp only [SchEdit.run, Schematic.components, key]
  cases (s.elements.filterMap Element.component?).find? fun c => c.reference = r with
  | none => simp [Schematic.modifyComponent, Sch.modifyFirst_id]
  | some c => simp only [Res.bind_assoc, Res.bind_ok, Schematic.modifyComponent]

theorem Order.modR_ends (r : Str) (es : List (CompEdit F)) (l : List (Element F)) : OkOrPanic (modR r (runComp es) l) := by
  induction l with
  | nil => exact .inl ⟨_, rfl⟩
  | cons e l ih =>
    have step : OkOrPanic (do let t' ← modR r (runComp es) l; .ok (e :: t')) := by
      rcases ih with ⟨t, h⟩ | h <;> rw [h]
      · exact .inl ⟨_, rfl⟩
      · exact .inr rfl
    rcases element_cases e with ⟨c, rfl⟩ | he
    · simp only [modR]
      split
      · rcases runComp_ends es c with ⟨t, h⟩ | h <;> rw [h]
        · exact .inl ⟨_, rfl⟩
        · exact .inr rfl
      · exact step
    · rw [modR_other r _ e he]; exact step

theorem Order.modR_modR (r r' : Str) (es es' : List (CompEdit F)) (h1 : ∀ e ∈ es, e.KeepsReference)
    (h2 : ∀ e ∈ es', e.KeepsReference) (l : List (Element F))
    (hc : ∀ c, Element.component c ∈ l → r = r' → (runComp es c >>= runComp es') = (runComp es' c >>= runComp es)) :
    (modR r (runComp es) l >>= modR r' (runComp es')) = (modR r' (runComp es') l >>= modR r (runComp es)) := by
  induction l with
  | nil => rfl
  | cons e l ih =>
    have ih := ih fun c h => hc c (List.mem_cons_of_mem _ h)
    have half : ∀ (x y : Str) (xs ys : List (CompEdit F)), (∀ e ∈ xs, e.KeepsReference) → ∀ c : Component F,
        c.reference = x → c.reference ≠ y →
        (modR x (runComp xs) (.component c :: l) >>= modR y (runComp ys)) =
          (modR y (runComp ys) (.component c :: l) >>= modR x (runComp xs)) := by
      intro x y xs ys hk c hx hy
      have k1 : (modR x (runComp xs) (.component c :: l) >>= modR y (runComp ys)) =
          (do let c' ← runComp xs c; let t' ← modR y (runComp ys) l; .ok (Element.component c' :: t')) := by
        rw [modR_hit x _ c hx]
        cases hr : runComp xs c with
        | ok c' =>
          have := runComp_keeps xs hk c c' hr
          simp only [Res.bind_ok]
          rw [modR_miss y _ c' (by rw [this]; exact hy)]
        | _ => rfl
      rw [k1, swap (runComp_ends xs c) (modR_ends y ys l), modR_miss y _ c hy, Res.bind_assoc]
      simp only [Res.bind_ok, modR_hit x _ c hx]
    rcases element_cases e with ⟨c, rfl⟩ | he
    · by_cases ha : c.reference = r <;> by_cases hb : c.reference = r'
      · have hc := hc c (by simp) (ha.symm.trans hb)
        have k1 : ∀ (x y : Str) (xs ys : List (CompEdit F)), (∀ e ∈ xs, e.KeepsReference) → c.reference = x → c.reference = y →
            (modR x (runComp xs) (.component c :: l) >>= modR y (runComp ys)) =
              ((runComp xs c >>= runComp ys) >>= fun c'' => .ok (Element.component c'' :: l)) := by
          intro x y xs ys hk hx hy
          rw [modR_hit x _ c hx]
          cases hr : runComp xs c with
          | ok c' =>
            have := (runComp_keeps xs hk c c' hr).trans hy
            simp only [Res.bind_ok]
            rw [modR_hit y _ c' this]
          | _ => rfl
        rw [k1 r r' es es' h1 ha hb, k1 r' r es' es h2 hb ha, hc]
      · exact half r r' es es' h1 c ha hb
      · exact (half r' r es' es h2 c hb ha).symm
      · rw [modR_miss r _ c ha, modR_miss r' _ c hb]
        simp only [Res.bind_assoc, Res.bind_ok, modR_miss r' _ c hb, modR_miss r _ c ha]
        rw [← Res.bind_assoc, ih, Res.bind_assoc]
    · rw [modR_other _ _ e he, modR_other _ _ e he]
      simp only [Res.bind_assoc, Res.bind_ok, modR_other _ _ e he]
      rw [← Res.bind_assoc, ih, Res.bind_assoc]

theorem Order.sch_ends (e : SchEdit F) (s : Schematic F) : OkOrPanic (e.run s) := by
  cases e with
  | editComponent r es =>
    rw [modR_run]
    rcases modR_ends r es s.elements with ⟨t, h⟩ | h <;> rw [h]
    · exact .inl ⟨_, rfl⟩
    · exact .inr rfl
  | incrementSheetCount =>
    simp only [SchEdit.run, Schematic.incrementSheetCount]
    split
    · exact .inr rfl
    · exact .inl ⟨_, rfl⟩
  | append e => exact .inl ⟨_, rfl⟩
  | appendSheet x => exact .inl ⟨_, rfl⟩

theorem Order.runComp_lists (es fs : List (CompEdit F)) (h : ∀ e ∈ es, ∀ f ∈ fs, e.Free f) (c : Component F)
    (hc : Standard c ∧ Extensible c) : (runComp es c >>= runComp fs) = (runComp fs c >>= runComp es) := by
  have one : ∀ (f : CompEdit F), ∀ (es : List (CompEdit F)), (∀ e ∈ es, e.Free f) → ∀ c : Component F,
      Standard c ∧ Extensible c → (runComp es c >>= f.run) = (f.run c >>= runComp es) := by
    intro f es
    induction es with
    | nil => intro _ c _; cases h : f.run c <;> simp [runComp, h]
    | cons e es ih =>
      intro h c hc
      rw [List.forall_mem_cons] at h
      have hp := C99_component_pair e f h.1 c hc.1 hc.2
      simp only [runComp] at hp
      have tidy : ∀ (x : Res (Component F)), (x >>= fun a => .ok a) = x := fun x => by cases x <;> rfl
      simp only [tidy] at hp
      rw [runComp, Res.bind_assoc]
      have : (e.run c >>= fun x => runComp es x >>= f.run) = (e.run c >>= fun x => f.run x >>= runComp es) := by
        cases hr : e.run c with
        | ok c1 => exact ih h.2 c1 (comp_inv e c c1 hr hc)
        | _ => rfl
      rw [this, ← Res.bind_assoc, show (e.run c >>= fun x => f.run x) = (e.run c >>= f.run) from rfl] at *
      rw [hp, Res.bind_assoc]
      rfl
  induction fs generalizing c with
  | nil => cases h : runComp es c <;> simp [runComp, h]
  | cons f fs ih =>
    have h1 := one f es (fun e he => h e he f (by simp)) c hc
    have : (runComp es c >>= runComp (f :: fs)) = ((runComp es c >>= f.run) >>= runComp fs) := by
      rw [Res.bind_assoc]; rfl
    rw [this, h1, runComp, Res.bind_assoc, Res.bind_assoc]
    cases hr : f.run c with
    | ok c1 => exact ih (fun e he g hg => h e he g (List.mem_cons_of_mem _ hg)) c1 (comp_inv f c c1 hr hc)
    | _ => rfl

theorem Order.sch_comm (e f : SchEdit F) (h : e.FreeOf f) (s : Schematic F) (hs : Usual s) :
    (e.run s >>= f.run) = (f.run s >>= e.run) := by
  have hrun : ∀ r (es : List (CompEdit F)), (SchEdit.editComponent r es).run =
      fun s => (do let t ← modR r (runComp es) s.elements; .ok { s with elements := t }) := by
    intro r es; funext s; exact modR_run r es s
  have hinc : (SchEdit.incrementSheetCount : SchEdit F).run = fun s =>
      if s.description.sheetCount = 9223372036854775807 then .panic
      else .ok { s with description := { s.description with sheetCount := s.description.sheetCount + 1 } } := by
    funext s; rfl
  have inc : ∀ f : SchEdit F, (SchEdit.incrementSheetCount.run s >>= f.run) = (f.run s >>= SchEdit.incrementSheetCount.run) := by
    intro f
    cases f with
    | incrementSheetCount => rfl
    | editComponent r es =>
      rw [hrun, hinc]
      by_cases h' : s.description.sheetCount = 9223372036854775807 <;>
        rcases modR_ends r es s.elements with ⟨t, h⟩ | h <;> simp [h, h']
    | append e =>
      rw [hinc, show (SchEdit.append e).run = fun s => .ok { s with elements := s.elements ++ [e] } from rfl]
      by_cases h' : s.description.sheetCount = 9223372036854775807 <;> simp [h']
    | appendSheet e =>
      rw [hinc, show (SchEdit.appendSheet e : SchEdit F).run = fun s => .ok { s with sheets := s.sheets ++ [e] } from rfl]
      by_cases h' : s.description.sheetCount = 9223372036854775807 <;> simp [h']
  cases e with
  | incrementSheetCount => exact inc f
  | append _ => exact absurd h id
  | appendSheet x =>
    cases f <;> first | exact absurd h id | skip
    · rename_i r es
      rw [hrun, show (SchEdit.appendSheet x : SchEdit F).run = fun s => .ok { s with sheets := s.sheets ++ [x] } from rfl]
      simp only [Res.bind_ok]
      rcases modR_ends r es s.elements with ⟨t, h⟩ | h
      · simp [h]
      · simp [h]
    · rfl
  | editComponent r es =>
    cases f <;> first | exact absurd h id | skip
    rename_i r' es'
    obtain ⟨h1, h2, h3⟩ := h
    rw [hrun, hrun]
    have hmm := modR_modR r r' es es' h1 h2 s.elements (fun c hc hrr => by
      rcases h3 with h3 | h3
      · exact absurd hrr h3
      · exact runComp_lists es es' h3 c (hs c hc))
    simp only [Res.bind_assoc, Res.bind_ok]
    rw [show (do let x ← modR r (runComp es) s.elements; let t ← modR r' (runComp es') x; (.ok { s with elements := t } : Res (Schematic F)))
        = ((modR r (runComp es) s.elements >>= modR r' (runComp es')) >>= fun t => .ok { s with elements := t }) from
        (Res.bind_assoc _ _ _).symm, hmm, Res.bind_assoc]

theorem Order.modR_mem (r : Str) (es : List (CompEdit F)) (l t : List (Element F)) (h : modR r (runComp es) l = .ok t)
    (c : Component F) (hc : Element.component c ∈ t) :
    Element.component c ∈ l ∨ ∃ c0, Element.component c0 ∈ l ∧ runComp es c0 = .ok c := by
  induction l generalizing t with
  | nil => cases h; exact .inl hc
  | cons e l ih =>
    have step : ∀ t', modR r (runComp es) l = .ok t' → Element.component c ∈ e :: t' →
        Element.component c ∈ e :: l ∨ ∃ c0, Element.component c0 ∈ e :: l ∧ runComp es c0 = .ok c := by
      intro t' h hc
      rcases List.mem_cons.1 hc with hc | hc
      · exact .inl (by simp [hc])
      · rcases ih t' h hc with h | ⟨c0, h, h'⟩
        · exact .inl (List.mem_cons_of_mem _ h)
        · exact .inr ⟨c0, List.mem_cons_of_mem _ h, h'⟩
    rcases element_cases e with ⟨d, rfl⟩ | he
    · simp only [modR] at h
      split at h
      · obtain ⟨d', h1, h2⟩ := Res.bind_eq_ok.1 h
        cases h2
        rcases List.mem_cons.1 hc with hc | hc
        · cases hc
          exact .inr ⟨d, by simp, h1⟩
        · exact .inl (List.mem_cons_of_mem _ hc)
      · obtain ⟨t', h1, h2⟩ := Res.bind_eq_ok.1 h
        cases h2
        exact step t' h1 hc
    · rw [modR_other r _ e he] at h
      obtain ⟨t', h1, h2⟩ := Res.bind_eq_ok.1 h
      cases h2
      exact step t' h1 hc

theorem Order.sch_inv (e : SchEdit F) (he : e.Modest) (s s' : Schematic F) (h : e.run s = .ok s') (hs : Usual s) : Usual s' := by
  cases e with
  | editComponent r es =>
    rw [modR_run] at h
    obtain ⟨t, h1, h2⟩ := Res.bind_eq_ok.1 h
    cases h2
    intro c hc
    rcases modR_mem r es _ _ h1 c hc with hc | ⟨c0, hc, h'⟩
    · exact hs c hc
    · exact runComp_inv es c0 c h' (hs c0 hc)
  | incrementSheetCount =>
    simp only [SchEdit.run, Schematic.incrementSheetCount] at h
    split at h
    · cases h
    · cases h; exact hs
  | append e =>
    cases h
    intro c hc
    rcases List.mem_append.1 hc with hc | hc
    · exact hs c hc
    · rw [List.mem_singleton] at hc
      subst hc
      exact he
  | appendSheet x => cases h; exact hs

/-- A session of changes to a schematic that are about different components or different things
can be made in any order. -/
theorem C99_schematic_sessions (es fs : List (SchEdit F)) (hp : es.Perm fs) (h : es.Pairwise SchEdit.Free)
    (hm : ∀ e ∈ es, e.Modest) (s : Schematic F) (hs : Usual s) : runSch es s = runSch fs s := by
  have hfold : ∀ (es : List (SchEdit F)) (r : Res (Schematic F)),
      (r >>= runSch es) = es.foldl (fun r e => r >>= e.run) r := by
    intro es
    induction es with
    | nil => intro r; cases r <;> rfl
    | cons e es ih =>
      intro r
      rw [List.foldl_cons, ← ih]
      cases r <;> rfl
  have := Order.perm_fold (fun (r : Res (Schematic F)) (e : SchEdit F) => r >>= e.run)
    (fun r => ∀ s, r = .ok s → Usual s) SchEdit.Free (fun _ _ h => h.symm)
    (fun e f r h hr => ?_) hp (fun e he r hr c' hc' => ?_) h (.ok s) (fun c' hc' => by cases hc'; exact hs)
  · rw [← hfold, ← hfold] at this
    exact this
  · cases r with
    | ok s =>
      rcases h with h | h
      · exact Order.sch_comm e f h s (hr s rfl)
      · exact (Order.sch_comm f e h s (hr s rfl)).symm
    | _ => rfl
  · obtain ⟨c1, h1, h2⟩ := Res.bind_eq_ok.1 hc'
    exact Order.sch_inv e (hm e he) c1 c' h2 (hr c1 h1)

/-! ## Where the order matters, and examples -/

/-- Adding two new fields in different orders numbers them differently. -/
theorem C99_new_fields_ordered : ∃ (c : Component Nm) (t : Sch.Field Nm) (n n' v : Str), n ≠ n' ∧ Standard c ∧ Extensible c ∧
    runComp [.addOrUpdateField t n v, .addOrUpdateField t n' v] c ≠
      runComp [.addOrUpdateField t n' v, .addOrUpdateField t n v] c :=
  ⟨sampleComponent Nm, sampleField Nm 4 [] [], str! "A", str! "B", [], by decide, by decide, by decide, by decide +kernel⟩

/-- Moving and flipping, rotating and flipping cannot change places. -/
theorem C99_geometry_ordered : ∃ (m : Fp.Module Nm) (d : Nm),
    runFp [.flip, .move d d] m ≠ runFp [.move d d, .flip] m ∧
    runFp [.flip, .rotate d] m ≠ runFp [.rotate d, .flip] m :=
  ⟨⟨[], [.at_ ⟨lit 1 0, lit 1 0, zero⟩]⟩, lit 90 0, by decide +kernel, by decide +kernel⟩

/-- Renaming a net to a name and then on to another one. -/
theorem C99_renames_ordered : ¬ ∀ m : Fp.Module Nm,
    (m.renameNet (str! "a") (str! "b")).renameNet (str! "b") (str! "c") =
      (m.renameNet (str! "b") (str! "c")).renameNet (str! "a") (str! "b") := by
  rw [C99_renames]
  decide

example : ([.flip, .renameNet (str! "a") (str! "b"), .setReference (str! "R1") (str! "R2"),
    .renameNet (str! "c") (str! "b")] : List (FpEdit Nm)).Pairwise FpEdit.Free := by
  simp only [List.pairwise_cons, List.mem_cons, List.not_mem_nil, or_false, forall_eq_or_imp, forall_eq]
  refine ⟨⟨.inl ⟨.geometry, .nets, rfl, rfl, by simp [Facet.Disjoint]⟩, .inl ⟨.geometry, .texts, rfl, rfl, by simp [Facet.Disjoint]⟩,
    .inl ⟨.geometry, .nets, rfl, rfl, by simp [Facet.Disjoint]⟩⟩, ⟨.inl ⟨.nets, .texts, rfl, rfl, by simp [Facet.Disjoint]⟩,
    .inr (.inl ⟨_, _, _, _, rfl, rfl, by decide⟩)⟩, .inl ⟨.texts, .nets, rfl, rfl, by simp [Facet.Disjoint]⟩, by simp⟩

/-- A session on a board whose calls can be made in any order. -/
def Order.boardSession : List (BoardEdit Nm) :=
  [.move (lit 1 0) (lit 2 0), .renameNet (str! "/a/gnd") (str! "GND"), .setSetup (str! "grid") (str! "1"),
   .editModule (str! "R1") [.rotate (lit 90 0)], .editModule (str! "R2") [.rotate (lit 45 0)], .addNet 2 (str! "VCC")]

theorem Order.boardSession_free : boardSession.Pairwise BoardEdit.Free ∧ ∀ e ∈ boardSession, e.Modest := by
  have h1 : ∀ x y : Nm, ∀ r, (FpEdit.rotate r).Free (.move x y) := fun x y r => .inl ⟨.angle, .place, rfl, rfl, by simp [Facet.Disjoint]⟩
  have h2 : ∀ x y : Str, ∀ r : Nm, (FpEdit.rotate r).Free (.renameNet x y) :=
    fun x y r => .inl ⟨.angle, .nets, rfl, rfl, by simp [Facet.Disjoint]⟩
  refine ⟨?_, by simp [boardSession, BoardEdit.Modest, FpEdit.part]⟩
  simp [boardSession, List.pairwise_cons, BoardEdit.Free, BoardEdit.FreeOf, h1, h2, FpEdit.KeepsReference]

example : OneReference (sampleBoard : Lay.Layout Nm) := by
  intro m hm a b ha hb
  simp [sampleBoard, Lay.Layout.dflt] at hm
  subst hm
  simp [Fp.Module.isReferenceWithName, Fp.FpText.new] at ha hb
  rw [← ha, ← hb]

/-- A session on a schematic whose changes can be made in any order. -/
def Order.schSession : List (SchEdit Nm) :=
  [.editComponent (str! "R1") [.updateName (str! "R_small")], .incrementSheetCount,
   .editComponent (str! "R1") [.updateField (str! "MPN") (str! "Z"), .addOrUpdateField (sampleField Nm 4 [] []) (str! "Tol") (str! "1%")],
   .editComponent (str! "C1") [.updateName (str! "C")]]

example : Order.schSession.Pairwise SchEdit.Free ∧ ∀ e ∈ Order.schSession, e.Modest := by
  refine ⟨?_, by simp [Order.schSession, SchEdit.Modest]⟩
  simp [Order.schSession, List.pairwise_cons, SchEdit.Free, SchEdit.FreeOf, CompEdit.Free, CompEdit.FreeOf, CompEdit.KeepsReference]

example : Usual ({ (Schematic.dflt : Schematic Nm) with elements := [.component (sampleComponent Nm)] }) := by
  intro c hc
  simp at hc
  subst hc
  exact ⟨by decide, by decide⟩

end Verif

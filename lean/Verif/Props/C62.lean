import Verif.Spec.Nets
import Verif.Props.C60
import Verif.Props.C42
/-!
# C62: the nets of a board stay consistent
-/

set_option linter.unusedSectionVars false

namespace Verif
open Flt Lay Spec

variable {F : Type} [Flt F]

/-- A name after renaming. -/
def Spec.newName (old new n : Str) : Str := if n = old then new else n

theorem Lay.connections_renamed (old new : Str) (e : Elem F) :
    connections (Lay.renamed old new e) = (connections e).map fun c => (c.1, newName old new c.2) := by
  cases e with
  | module_ m =>
    simp only [Lay.renamed, connections, Fp.Module.renameNet, List.filterMap_map, List.map_filterMap]
    congr 1
    funext e
    cases e with
    | pad p =>
      rcases hn : p.net with _ | n
      · simp [Fp.Module.renameNetElem, padNet, Fp.Pad.renameNet, hn]
      · simp only [Function.comp_apply, Fp.Module.renameNetElem, padNet, Fp.Pad.renameNet, hn, newName,
          Option.map_some]
        split <;> simp
    | _ => rfl
  | zone z => simp [Lay.renamed, connections, rename, newName]
  | _ => rfl

theorem Lay.members_renamed (old new : Str) (e : Elem F) :
    members (Lay.renamed old new e) = (members e).map (newName old new) := by
  cases e <;> rfl

theorem Lay.declared_renamed (old new : Str) (l : Layout F) :
    declared { l with elements := l.elements.map (Lay.renamed old new) } =
      (declared l).map fun c => (c.1, newName old new c.2) := by
  simp only [declared, List.filterMap_map, List.map_filterMap]
  congr 1
  funext e
  cases e <;> simp [Lay.renamed, rename, newName]

/-- Renaming a net keeps the nets consistent: every pad, zone and net class that
referred to a declared net still does, to the one with the same number. -/
theorem C62_rename_keeps_declared (l l' : Layout F) (old new : Str) (h : NetsDeclared l)
    (hr : l.changeNetName old new = .ok l') : NetsDeclared l' := by
  rw [Lay.changeNetName_eq, Res.ok.injEq] at hr
  subst hr
  intro e he
  obtain ⟨e', he', rfl⟩ := List.mem_map.1 he
  obtain ⟨h1, h2⟩ := h e' he'
  rw [Lay.connections_renamed, Lay.members_renamed, Lay.declared_renamed]
  constructor
  · intro c hc
    obtain ⟨c', hc', rfl⟩ := List.mem_map.1 hc
    exact List.mem_map.2 ⟨c', h1 c' hc', rfl⟩
  · intro n hn
    obtain ⟨n', hn', rfl⟩ := List.mem_map.1 hn
    obtain ⟨d, hd, rfl⟩ := List.mem_map.1 (h2 n' hn')
    rw [List.map_map]
    exact List.mem_map.2 ⟨d, hd, rfl⟩

/-- The connectivity is unchanged: the pads and zones are connected to the same
net numbers, in the same order, and two of them that had the same net name still
do.  If the new name was not in use, those with different names still have
different names. -/
theorem C62_rename_keeps_connectivity (l l' : Layout F) (old new : Str)
    (hr : l.changeNetName old new = .ok l') :
    (l'.elements.flatMap connections).map Prod.fst = (l.elements.flatMap connections).map Prod.fst ∧
    ∀ (i j : Nat) (a b a' b' : Int × Str), (l.elements.flatMap connections)[i]? = some a →
      (l.elements.flatMap connections)[j]? = some b →
      (l'.elements.flatMap connections)[i]? = some a' →
      (l'.elements.flatMap connections)[j]? = some b' →
      (a.2 = b.2 → a'.2 = b'.2) ∧
      (new ∉ (l.elements.flatMap connections).map Prod.snd → a'.2 = b'.2 → a.2 = b.2) := by
  rw [Lay.changeNetName_eq, Res.ok.injEq] at hr
  subst hr
  have h : ((l.elements.map (Lay.renamed old new)).flatMap connections) =
      (l.elements.flatMap connections).map fun c => (c.1, newName old new c.2) := by
    rw [List.flatMap_map, List.map_flatMap]
    congr 1
    funext e
    exact Lay.connections_renamed old new e
  simp only
  rw [h]
  refine ⟨by rw [List.map_map]; rfl, ?_⟩
  intro i j a b a' b' ha hb ha' hb'
  rw [List.getElem?_map, ha, Option.map_some, Option.some.injEq] at ha'
  rw [List.getElem?_map, hb, Option.map_some, Option.some.injEq] at hb'
  subst ha' hb'
  refine ⟨fun h => by simp [h], fun hnew hab => ?_⟩
  have na : a.2 ≠ new := fun h => hnew (List.mem_map.2 ⟨a, List.mem_of_getElem? ha, h⟩)
  have nb : b.2 ≠ new := fun h => hnew (List.mem_map.2 ⟨b, List.mem_of_getElem? hb, h⟩)
  simp only [newName] at hab
  split at hab <;> split at hab <;> simp_all

theorem Fp.netless_run (e : FpEdit F) (he : e.Netless) (m : Fp.Module F) :
    (e.run m).elements.filterMap padNet = m.elements.filterMap padNet := by
  have via : ∀ f : Fp.Elem F → Fp.Elem F, (∀ e, padNet (f e) = padNet e) →
      (m.elements.map f).filterMap padNet = m.elements.filterMap padNet := by
    intro f hf
    rw [List.filterMap_map]
    congr 1
    funext e
    exact hf e
  cases e with
  | flip => exact via _ fun e => by cases e <;> rfl
  | rotate r => exact via _ fun e => by cases e <;> rfl
  | move x y => exact via _ fun e => by cases e <;> rfl
  | setReference a b =>
    refine via _ fun e => ?_
    cases e <;> simp only [Fp.Module.setReferenceElem]
    split <;> rfl
  | renameNet a b => exact he.elim
  | append e => simp [FpEdit.run, Fp.Module.append, List.filterMap_append, show padNet e = none from he]
  | fix cfg =>
    have hp : ∀ m : Fp.Module F, m.elements.filterMap padNet =
        m.pads.filterMap fun p => p.net.map fun n => (n.num, n.name) := by
      intro m
      rw [Fp.Module.pads, List.filterMap_filterMap]
      congr 1
      funext e
      cases e <;> rfl
    show (m.fix cfg).elements.filterMap padNet = _
    rw [hp, hp, Fp.pads_fix]

theorem Fp.netless_runFp (es : List (FpEdit F)) (he : ∀ e ∈ es, e.Netless) (m : Fp.Module F) :
    (runFp es m).elements.filterMap padNet = m.elements.filterMap padNet := by
  induction es generalizing m with
  | nil => rfl
  | cons e es ih =>
    rw [List.forall_mem_cons] at he
    exact (ih he.2 (e.run m)).trans (Fp.netless_run e he.1 m)

/-- Changing elements without touching nets keeps the nets consistent. -/
theorem Lay.declared_map (l : Layout F) (f : Elem F → Elem F)
    (h1 : ∀ e, connections (f e) = connections e) (h2 : ∀ e, members (f e) = members e)
    (h3 : ∀ n, f (.net n) = .net n) (h4 : ∀ e, (∀ n, e ≠ .net n) → ∀ n, f e ≠ .net n)
    (h : NetsDeclared l) : NetsDeclared { l with elements := l.elements.map f } := by
  have hd : declared { l with elements := l.elements.map f } = declared l := by
    simp only [declared, List.filterMap_map]
    congr 1
    funext e
    cases e with
    | net n => simp [h3]
    | _ =>
      simp only [Function.comp_apply]
      split
      · rename_i n hn; exact absurd hn (h4 _ (by simp) n)
      · rfl
  intro e he
  obtain ⟨e', he', rfl⟩ := List.mem_map.1 he
  rw [hd, h1, h2]
  exact h e' he'

theorem Lay.declared_snoc (l : Layout F) (e : Elem F) :
    ∃ x, declared { l with elements := l.elements ++ [e] } = declared l ++ x := by
  exact ⟨_, by simp only [declared, List.filterMap_append]; rfl⟩

theorem Lay.netsDeclared_snoc (l : Layout F) (e : Elem F) (h : NetsDeclared l)
    (h1 : ∀ c ∈ connections e, c ∈ declared l) (h2 : ∀ n ∈ members e, n ∈ (declared l).map Prod.snd) :
    NetsDeclared { l with elements := l.elements ++ [e] } := by
  obtain ⟨x, hx⟩ := Lay.declared_snoc l e
  intro e' he'
  rw [hx, List.map_append]
  rcases List.mem_append.1 he' with he' | he'
  · exact ⟨fun c hc => List.mem_append_left _ ((h e' he').1 c hc),
      fun c hc => List.mem_append_left _ ((h e' he').2 c hc)⟩
  · rw [List.mem_singleton.1 he']
    exact ⟨fun c hc => List.mem_append_left _ (h1 c hc), fun c hc => List.mem_append_left _ (h2 c hc)⟩

theorem Lay.modifyModuleIn_split (r : Str) (f : Fp.Module F → Fp.Module F) (es es' : List (Elem F))
    (h : modifyModuleIn r f es = some es') :
    ∃ a m b, es = a ++ .module_ m :: b ∧ es' = a ++ .module_ (f m) :: b := by
  induction es generalizing es' with
  | nil => simp [modifyModuleIn] at h
  | cons x xs ih =>
    have skip : (modifyModuleIn r f xs).map (x :: ·) = some es' →
        ∃ a m b, x :: xs = a ++ .module_ m :: b ∧ es' = a ++ .module_ (f m) :: b := by
      intro h
      rcases hu : modifyModuleIn r f xs with _ | ys
      · simp [hu] at h
      · simp only [hu, Option.map_some, Option.some.injEq] at h
        obtain ⟨a, m, b, h1, h2⟩ := ih ys hu
        exact ⟨x :: a, m, b, by simp [h1], by simp [← h, h2]⟩
    cases x with
    | module_ m =>
      simp only [modifyModuleIn] at h
      split at h
      · cases h; exact ⟨[], m, xs, rfl, rfl⟩
      · exact skip h
    | _ => exact skip h

theorem Lay.run_declared (e : BoardEdit F) (l l' : Layout F) (he : e.Netwise l) (h : NetsDeclared l)
    (hr : e.run l = .ok l') : NetsDeclared l' := by
  cases e with
  | move x y =>
    cases hr
    refine Lay.declared_map l _ ?_ ?_ (fun _ => rfl) ?_ h
    · intro e
      cases e with
      | module_ m => exact Fp.netless_run (.move x y) trivial m
      | _ => rfl
    · intro e; cases e <;> rfl
    · intro e he n; cases e <;> simp_all [Elem.adjust]
  | renameNet a b => exact C62_rename_keeps_declared l l' a b h hr
  | addNet n name => cases hr; exact Lay.netsDeclared_snoc l _ h (by simp [connections]) (by simp [members])
  | addNetclass nc => cases hr; exact Lay.netsDeclared_snoc l _ h (by simp [connections]) he
  | setSetup a b => cases hr; exact h
  | append e => cases hr; exact Lay.netsDeclared_snoc l _ h he.1 he.2
  | editModule r es =>
    simp only [BoardEdit.run, Layout.modifyModule] at hr
    split at hr
    · rename_i es' hes
      cases hr
      obtain ⟨a, m, b, h1, h2⟩ := Lay.modifyModuleIn_split r _ _ _ hes
      have hd : declared { l with elements := es' } = declared l := by
        simp [declared, h1, h2]
      intro e' he'
      rw [hd]
      simp only at he'
      rw [h2] at he'
      rcases List.mem_append.1 he' with h3 | h3
      · exact h e' (by rw [h1]; exact List.mem_append_left _ h3)
      · rcases List.mem_cons.1 h3 with rfl | h3
        · have := h (.module_ m) (by rw [h1]; simp)
          refine ⟨?_, this.2⟩
          simp only [connections, Fp.netless_runFp es he m]
          exact this.1
        · exact h e' (by rw [h1]; exact List.mem_append_right _ (List.mem_cons_of_mem _ h3))
    · simp at hr

/-- Nets stay consistent through any editing session in which new elements refer
only to nets declared by then and modules are not given other nets. -/
theorem C62_session_keeps_declared (edits : List (BoardEdit F)) (l l' : Layout F)
    (he : NetwiseSession edits l) (h : NetsDeclared l) (hr : runBoard edits l = .ok l') :
    NetsDeclared l' := by
  induction edits generalizing l with
  | nil => cases hr; exact h
  | cons e es ih =>
    obtain ⟨h1, h2⟩ := he
    simp only [runBoard] at hr h2
    rcases hrun : e.run l with l2 | x | _ | _ <;> rw [hrun] at hr h2 <;> simp only [reduceCtorEq] at hr
    · exact ih l2 (h2 l2 rfl) (Lay.run_declared e l l2 h1 h hrun) hr
    · exact ih l (h2 l rfl) h hr

/-- Renaming a net in a single module instead of the board does not: if the new
name is not declared and a pad of the module uses the old one, the pad ends up on
an undeclared net. -/
theorem C62_module_rename_breaks (l l' : Layout F) (r old new : Str) (m : Fp.Module F)
    (hg : l.getModule r = some m) (hp : old ∈ (m.elements.filterMap padNet).map Prod.snd)
    (hn : new ∉ (declared l).map Prod.snd) (hr : l.modifyModule r (·.renameNet old new) = .ok l') :
    ¬ NetsDeclared l' := by
  obtain ⟨a, b, h1, _, h3⟩ := (C42_modify l r (·.renameNet old new)).1 m hg
  rw [hr, Res.ok.injEq] at h3
  subst h3
  intro h
  have hd : declared { l with elements := a ++ .module_ (m.renameNet old new) :: b } = declared l := by
    simp [declared, h1]
  have h4 := (h (.module_ (m.renameNet old new)) (by simp)).1
  rw [hd] at h4
  obtain ⟨c, hc, hc'⟩ := List.mem_map.1 hp
  have h5 := Lay.connections_renamed old new (.module_ m)
  simp only [Lay.renamed, connections] at h5 h4
  refine hn (List.mem_map.2 ⟨(c.1, newName old new c.2), h4 _ ?_, ?_⟩)
  · rw [h5]; exact List.mem_map.2 ⟨c, hc, rfl⟩
  · simp [newName, hc']

/-- A board with a net used by a pad, a zone and a net class. -/
def Spec.netBoard : Layout Nm :=
  { sampleBoard with elements := sampleBoard.elements.map fun e => match e with
      | .netClass nc => .netClass { nc with nets := [str! "/a/gnd"] }
      | e => e }

theorem Spec.netBoard_declared : NetsDeclared netBoard := by
  have h : ∀ e ∈ netBoard.elements, connections e ⊆ [(1, str! "/a/gnd")] ∧ members e ⊆ [str! "/a/gnd"] := by
    decide +kernel
  have hd : declared netBoard = [(1, str! "/a/gnd")] := by decide +kernel
  intro e he
  rw [hd]
  exact ⟨fun c hc => (h e he).1 hc, fun c hc => (h e he).2 hc⟩

example : (netBoard.elements.flatMap connections).length = 1 ∧
    ∃ l', runBoard [.renameNet (str! "/a/gnd") (str! "GND"), .addNet 2 (str! "vcc"),
      .editModule (str! "R1") [.flip, .fix Config.klc]] netBoard = .ok l' ∧ NetsDeclared l' := by
  refine ⟨by decide +kernel, ?_⟩
  obtain ⟨l', h⟩ := C60_edits_return [BoardEdit.renameNet (str! "/a/gnd") (str! "GND"), .addNet 2 (str! "vcc"),
      .editModule (str! "R1") [.flip, .fix Config.klc]] netBoard
  refine ⟨l', h, C62_session_keeps_declared _ _ _ ?_ netBoard_declared h⟩
  refine ⟨trivial, fun _ _ => ⟨trivial, fun _ _ => ⟨?_, fun _ _ => trivial⟩⟩⟩
  intro e he
  simp only [List.mem_cons, List.not_mem_nil, or_false] at he
  rcases he with rfl | rfl <;> trivial

example : ∃ m, netBoard.getModule (str! "R1") = some m ∧
    str! "/a/gnd" ∈ (m.elements.filterMap padNet).map Prod.snd ∧
    str! "GND" ∉ (declared netBoard).map Prod.snd := by
  refine ⟨_, rfl, by decide +kernel, by decide +kernel⟩

end Verif

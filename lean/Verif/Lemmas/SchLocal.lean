import Verif.Lemmas.SchTerm
import Verif.Lemmas.LibLocal
/-!
# Reading a schematic: an item that was read does not depend on what was read before or what follows
-/

set_option linter.unusedSectionVars false

namespace Verif.Sch
open Verif Flt Res Spec

/-- A reader that succeeds with the lines `p` stops at one of them and does the
same if more lines follow. -/
def Local {α : Type} (more : List Str) (r r' : Res (α × List Str)) : Prop :=
  ∀ a p', r = .ok (a, p') → p' ≠ [] ∧ r' = .ok (a, p' ++ more)

variable {α β : Type} {more : List Str}

theorem local_here {k k' : Str → Res (α × List Str)} (p : List Str)
    (h : ∀ s rest, p = s :: rest → Local more (k s) (k' s)) :
    Local more (here p >>= k) (here (p ++ more) >>= k') := by
  cases p with
  | nil => intro a p' h; cases h
  | cons s rest => exact h s rest rfl

theorem local_bind {x : Res β} {k k' : β → Res (α × List Str)} (h : ∀ b, x = .ok b → Local more (k b) (k' b)) :
    Local more (x >>= k) (x >>= k') := by
  intro a p' hk
  obtain ⟨b, hb, hk⟩ := Res.bind_eq_ok.1 hk
  subst hb
  exact h b rfl a p' hk

theorem local_then {x x' : Res (β × List Str)} {k k' : β × List Str → Res (α × List Str)} (hx : Local more x x')
    (h : ∀ b p, p ≠ [] → Local more (k (b, p)) (k' (b, p ++ more))) :
    Local more (x >>= k) (x' >>= k') := by
  intro a p' hk
  obtain ⟨⟨b, p⟩, hb, hk⟩ := Res.bind_eq_ok.1 hk
  obtain ⟨h1, h2⟩ := hx b p hb
  rw [h2, Res.bind_ok]
  exact h b p h1 a p' hk

theorem local_ok {a : α} {p : List Str} (h : p ≠ []) : Local more (.ok (a, p)) (.ok (a, p ++ more)) := by
  intro b p' hb
  cases hb
  exact ⟨h, rfl⟩

theorem local_err {e : Err} {r : Res (α × List Str)} : Local more (.err e) r := by intro b p' h; cases h
theorem local_panic {r : Res (α × List Str)} : Local more .panic r := by intro b p' h; cases h

theorem next_cons (s : Str) (rest : List Str) : next (s :: rest) = rest := rfl

theorem local_ite {c : Prop} [Decidable c] {a b a' b' : Res (α × List Str)} (h1 : c → Local more a a')
    (h2 : ¬ c → Local more b b') : Local more (if c then a else b) (if c then a' else b') := by
  by_cases h : c
  · rw [if_pos h, if_pos h]; exact h1 h
  · rw [if_neg h, if_neg h]; exact h2 h

/-- Steps through a reader without loops. -/
macro "locally" : tactic => `(tactic|
  repeat' first
    | exact local_err
    | exact local_panic
    | exact local_ok (by simp)
    | (refine local_ite (fun _ => ?_) (fun _ => ?_))
    | (refine local_here _ (fun s rest hp => ?_); subst hp
       simp only [List.cons_append, next_cons])
    | (refine local_bind (fun _ _ => ?_)))

theorem parseWire_local (p : List Str) : Local more (parseWire p) (parseWire (p ++ more)) := by
  unfold parseWire
  locally

theorem parseText_local (p : List Str) : Local more (parseText p) (parseText (p ++ more)) := by
  unfold parseText
  locally

theorem parseDescription_local (p : List Str) :
    Local more (parseDescription p) (parseDescription (p ++ more)) := by
  unfold parseDescription
  refine local_here _ (fun s rest hp => ?_)
  subst hp
  simp only [List.cons_append, next_cons]
  cases rest with
  | nil =>
    intro a p' h
    exfalso
    simp only [Res.bind_eq_ok] at h
    obtain ⟨_, _, _, _, _, _, _, _, _, _, _, _, _, h, _⟩ := h
    cases h
  | cons b rest =>
    simp only [List.cons_append, next_cons]
    locally

variable {F : Type} [Flt F]

theorem parseComponentLoop_local : ∀ (n : Nat) (d : Component F) (p : List Str), p.length ≤ n →
    Local more (parseComponentLoop d p) (parseComponentLoop d (p ++ more)) := by
  intro n
  induction n with
  | zero =>
    intro d p hp
    cases p with
    | nil => rw [parseComponentLoop]; exact local_panic
    | cons s p => simp at hp
  | succ n ih =>
    intro d p hp
    cases p with
    | nil => rw [parseComponentLoop]; exact local_panic
    | cons s rest =>
      have hr : rest.length ≤ n := by simpa using hp
      rw [List.cons_append, parseComponentLoop.eq_def, parseComponentLoop.eq_def _ (s :: (rest ++ more))]
      dsimp only
      refine local_ite (fun _ => local_ok (by simp)) (fun _ => ?_)
      refine local_ite (fun _ => local_bind fun d' _ => ih _ _ hr) (fun _ => ?_)
      refine local_ite (fun _ => ih _ _ hr) (fun _ => ?_)
      refine local_ite (fun _ => local_bind fun d' _ => ih _ _ hr) (fun _ => ?_)
      refine local_ite (fun _ => local_bind fun d' _ => ih _ _ hr) (fun _ => ?_)
      refine local_ite (fun _ => ?_) (fun _ => ?_)
      · cases rest with
        | nil => exact local_panic
        | cons s2 rest2 =>
          exact local_bind fun r _ => ih _ _ (by simp at hr; omega)
      · exact local_ite (fun _ => ih _ _ hr) (fun _ => ih _ _ hr)

theorem parseComponent_local (p : List Str) :
    Local more (parseComponent (F := F) p) (parseComponent (p ++ more)) := by
  cases p with
  | nil => unfold parseComponent next; exact local_panic
  | cons s rest => exact parseComponentLoop_local _ _ rest (Nat.le_refl _)

theorem parseSheetLoop_local (d : Sheet) (p : List Str) :
    Local more (parseSheetLoop d p) (parseSheetLoop d (p ++ more)) := by
  induction p generalizing d with
  | nil => rw [parseSheetLoop]; exact local_panic
  | cons s rest ih =>
    rw [List.cons_append, parseSheetLoop, parseSheetLoop]
    refine local_ite (fun _ => local_ok (by simp)) (fun _ => ?_)
    cases firstWord s with
    | none => exact ih _
    | some w =>
      refine local_ite (fun _ => local_bind fun d' _ => ih _) (fun _ => ?_)
      refine local_ite (fun _ => local_bind fun d' _ => ih _) (fun _ => ?_)
      exact local_ite (fun _ => local_bind fun d' _ => ih _) (fun _ => ih _)

theorem parseSheet_local (p : List Str) : Local more (parseSheet p) (parseSheet (p ++ more)) := by
  cases p with
  | nil => unfold parseSheet next; exact local_panic
  | cons s rest => exact parseSheetLoop_local _ rest

/-- What one item adds to a schematic. -/
inductive Item (F : Type)
  | descr (d : Description) | element (e : Element F) | sheet (s : Sheet) | nothing

/-- Adding an item. -/
def Item.add (sch : Schematic F) : Item F → Schematic F
  | .descr d => { sch with description := d }
  | .element e => { sch with elements := sch.elements ++ [e] }
  | .sheet s => { sch with sheets := sch.sheets ++ [s] }
  | .nothing => sch

/-- Reading one item. -/
def readItem (p : List Str) : Res (Item F × List Str) := do
  let s ← here p
  match firstWord s with
  | none => .panic
  | some w =>
    if w = str! "$Descr" then do let (d, p) ← parseDescription p; .ok (.descr d, p)
    else if w = str! "$Comp" then do let (d, p) ← parseComponent p; .ok (.element (.component d), p)
    else if w = str! "$Sheet" then do let (d, p) ← parseSheet p; .ok (.sheet d, p)
    else if w = str! "$EndSCHEMATC" then .ok (.nothing, p)
    else if w = str! "Wire" then do let (d, p) ← parseWire p; .ok (.element (.wire d), p)
    else if w = str! "Connection" then do let d ← parsePos s; .ok (.element (.connection d), p)
    else if w = str! "NoConn" then do let d ← parsePos s; .ok (.element (.noConnect d), p)
    else if w = str! "Text" then do let (d, p) ← parseText p; .ok (.element (.text d), p)
    else .ok (.element (.other s), p)

theorem parseItem_eq (sch : Schematic F) (p : List Str) :
    parseItem sch p = readItem p >>= fun r => .ok (r.1.add sch, r.2) := by
  unfold parseItem readItem
  rw [Res.bind_assoc]
  congr 1
  funext s
  cases firstWord s with
  | none => rfl
  | some w =>
    have hite : ∀ {c : Prop} [Decidable c] (a b : Res (Item F × List Str)),
        ((if c then a else b) >>= fun r => Res.ok (r.1.add sch, r.2)) =
        if c then a >>= fun r => Res.ok (r.1.add sch, r.2) else b >>= fun r => Res.ok (r.1.add sch, r.2) := by
      intro c _ a b; split <;> rfl
    dsimp only
    simp only [hite, Res.bind_assoc, Res.bind_ok]
    rfl

theorem readItem_local (p : List Str) : Local more (readItem (F := F) p) (readItem (p ++ more)) := by
  unfold readItem
  refine local_here _ (fun s rest hp => ?_)
  cases firstWord s with
  | none => exact local_panic
  | some w =>
    refine local_ite (fun _ => local_then (parseDescription_local p) fun b p h => local_ok h) (fun _ => ?_)
    refine local_ite (fun _ => local_then (parseComponent_local p) fun b p h => local_ok h) (fun _ => ?_)
    refine local_ite (fun _ => local_then (parseSheet_local p) fun b p h => local_ok h) (fun _ => ?_)
    refine local_ite (fun _ => local_ok (by rw [hp]; simp)) (fun _ => ?_)
    refine local_ite (fun _ => local_then (parseWire_local p) fun b p h => local_ok h) (fun _ => ?_)
    refine local_ite (fun _ => local_bind fun _ _ => local_ok (by rw [hp]; simp)) (fun _ => ?_)
    refine local_ite (fun _ => local_bind fun _ _ => local_ok (by rw [hp]; simp)) (fun _ => ?_)
    refine local_ite (fun _ => local_then (parseText_local p) fun b p h => local_ok h) (fun _ => ?_)
    exact local_ok (by rw [hp]; simp)

theorem readItem_forward {p p' : List Str} {i : Item F} (h : readItem p = .ok (i, p')) : p'.length ≤ p.length := by
  refine (parseItem_forward (Schematic.dflt : Schematic F) p).2 (i.add .dflt) p' ?_
  rw [parseItem_eq, h]
  rfl

theorem readItem_ends (p : List Str) : (readItem p : Res (Item F × List Str)) ≠ .diverge := by
  intro h
  refine (parseItem_forward (Schematic.dflt : Schematic F) p).1 ?_
  rw [parseItem_eq, h]
  rfl

/-- Reading items to the end. -/
def readItems : Nat → List Str → Res (List (Item F))
  | _, [] => .ok []
  | 0, _ :: _ => .diverge
  | fuel + 1, p => do
    let (i, p) ← readItem p
    let is ← readItems fuel (next p)
    .ok (i :: is)

theorem parseItems_eq (n : Nat) (sch : Schematic F) (p : List Str) :
    parseItems n sch p = readItems n p >>= fun is => .ok (is.foldl Item.add sch) := by
  induction n generalizing sch p with
  | zero => cases p <;> rfl
  | succ n ih =>
    cases p with
    | nil => rfl
    | cons s p =>
      rw [parseItems, readItems, parseItem_eq]
      · simp only [Res.bind_assoc, Res.bind_ok, ih, List.foldl_cons]
      · simp
      · simp

/-- The items in some lines. -/
def content (p : List Str) : Res (List (Item F)) := readItems p.length p

theorem readItems_fuel (n : Nat) : ∀ (p : List Str), p.length ≤ n → (readItems n p : Res (List (Item F))) = content p := by
  induction n using Nat.strongRecOn with
  | _ n ih =>
    intro p hp
    cases p with
    | nil => cases n <;> rfl
    | cons s p =>
      cases n with
      | zero => simp at hp
      | succ n =>
        rw [content, List.length_cons, readItems, readItems]
        · cases hi : (readItem (s :: p) : Res (Item F × List Str)) with
          | ok r =>
            obtain ⟨i, p'⟩ := r
            have hf := readItem_forward hi
            have hl : (next p').length ≤ p.length := by simp [next] at hf ⊢; omega
            simp only [List.length_cons] at hp
            simp only [Res.bind_ok]
            rw [ih n (by omega) _ (by omega), ih p.length (by omega) _ hl]
          | err e => rfl
          | panic => rfl
          | diverge => rfl
        · simp
        · simp

theorem content_cons (s : Str) (p : List Str) : (content (s :: p) : Res (List (Item F))) =
    readItem (s :: p) >>= fun r => content (next r.2) >>= fun is => .ok (r.1 :: is) := by
  rw [content, List.length_cons, readItems]
  · cases hi : (readItem (s :: p) : Res (Item F × List Str)) with
    | ok r =>
      obtain ⟨i, p'⟩ := r
      have hf := readItem_forward hi
      simp only [Res.bind_ok]
      rw [readItems_fuel _ _ (by simp [next] at hf ⊢; omega)]
    | err e => rfl
    | panic => rfl
    | diverge => rfl
  · simp

theorem content_append (more : List Str) : ∀ (n : Nat) (p : List Str) (is : List (Item F)), p.length ≤ n →
    content p = .ok is → content (p ++ more) = content more >>= fun js => .ok (is ++ js) := by
  intro n
  induction n with
  | zero =>
    intro p is hn h
    cases p with
    | nil =>
      cases h
      simp only [List.nil_append]
      cases (content more : Res (List (Item F))) <;> rfl
    | cons s p => simp at hn
  | succ n ih =>
    intro p is hn h
    cases p with
    | nil =>
      cases h
      simp only [List.nil_append]
      cases (content more : Res (List (Item F))) <;> rfl
    | cons s p =>
      rw [content_cons] at h
      obtain ⟨⟨i, p'⟩, hi, h⟩ := Res.bind_eq_ok.1 h
      obtain ⟨is', his, h⟩ := Res.bind_eq_ok.1 h
      cases h
      obtain ⟨hne, hl⟩ := readItem_local (more := more) _ _ _ hi
      have hf := readItem_forward hi
      have hnx : next (p' ++ more) = next p' ++ more := by
        cases p' with
        | nil => exact absurd rfl hne
        | cons x p' => rfl
      rw [List.cons_append, content_cons, ← List.cons_append, hl, Res.bind_ok]
      simp only [hnx]
      rw [ih (next p') is' (by simp [next] at hf hn ⊢; omega) his, Res.bind_assoc]
      rfl

theorem parseLibs_local (sch : Schematic F) (p : List Str) (h : (parseLibs sch p).2 ≠ []) :
    parseLibs sch (p ++ more) = ((parseLibs sch p).1, (parseLibs sch p).2 ++ more) := by
  induction p generalizing sch with
  | nil => exact absurd rfl h
  | cons s p ih =>
    rw [List.cons_append]
    rw [parseLibs] at h ⊢
    rw [parseLibs]
    split
    · rename_i hs
      rw [if_pos hs] at h
      exact ih _ h
    · rfl

/-- The lines of an accepted schematic: a header, which fixes the name, libraries
and layer line, and items. -/
theorem parseLines_split {f : Option Str} {v : List Str} {s : Schematic F} (h : parseLines f v = .ok s) :
    ∃ (sch : Schematic F) (p : List Str) (is : List (Item F)), content p = .ok is ∧ s = is.foldl Item.add sch ∧
      ∀ more, parseLines f (v ++ more) = content (p ++ more) >>= fun js => .ok (js.foldl Item.add sch) := by
  unfold parseLines at h ⊢
  obtain ⟨p1, h1, h⟩ := Res.bind_eq_ok.1 h
  simp only at h
  obtain ⟨s1, h2, h⟩ := Res.bind_eq_ok.1 h
  split at h
  · cases h
  · rename_i hs
    obtain ⟨p3, h3, h⟩ := Res.bind_eq_ok.1 h
    rw [parseItems_eq] at h
    obtain ⟨is, hi, h⟩ := Res.bind_eq_ok.1 h
    cases h
    refine ⟨_, p3, is, hi, rfl, fun more => ?_⟩
    have hne : (parseLibs ({ Schematic.dflt with filename := f } : Schematic F) p1).2 ≠ [] := by
      intro h0; rw [h0] at h2; cases h2
    rw [Lib.assumeLine_local more h1, Res.bind_ok]
    simp only [parseLibs_local _ _ hne]
    rw [Lib.here_local more h2, Res.bind_ok, if_neg hs, Lib.next_local more hne, Lib.assumeLine_local more h3, Res.bind_ok,
      parseItems_eq]
    rfl

end Verif.Sch

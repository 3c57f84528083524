import Verif.Model.SchematicOut
import Verif.Spec.SkippedLines
import Verif.Lemmas.SchSheetGrammar
/-!
# What the schematic reader prints
-/

namespace Verif
open Spec

namespace Told
variable {α β : Type}

@[simp] theorem of_out (r : Res α) : (of r).out = [] := rfl
@[simp] theorem of_res (r : Res α) : (of r).res = r := rfl

theorem bind_res (x : Told α) (f : α → Told β) : (x >>= f).res = x.res >>= fun a => (f a).res := by
  show (bind x f).res = _
  unfold bind
  cases x.res <;> rfl

theorem bind_ok_out {x : Told α} {a : α} (h : x.res = .ok a) (f : α → Told β) :
    (x >>= f).out = x.out ++ (f a).out := by
  show (bind x f).out = _
  unfold bind
  rw [h]

theorem bind_fail_out {x : Told α} (h : ∀ a, x.res ≠ .ok a) (f : α → Told β) : (x >>= f).out = x.out := by
  show (bind x f).out = _
  unfold bind
  cases e : x.res with
  | ok a => exact absurd e (h a)
  | _ => rfl

@[simp] theorem bind_of_ok (a : α) (f : α → Told β) : (of (.ok a) >>= f) = f a := rfl

theorem bind_of_out {r : Res α} {a : α} (h : r = .ok a) (f : α → Told β) : (of r >>= f) = f a := by subst h; rfl

@[simp] theorem say_out (s : Str) (f : Unit → Told β) : (say s >>= f).out = s :: (f ()).out := rfl
@[simp] theorem say_res (s : Str) (f : Unit → Told β) : (say s >>= f).res = (f ()).res := rfl

/-- Printing after a step that prints nothing. -/
theorem out_of {P : List Str → Prop} (h0 : P []) (r : Res α) (f : α → Told β) (h : ∀ a, r = .ok a → P (f a).out) :
    P (of r >>= f).out := by
  cases r with
  | ok a => exact h a rfl
  | _ => exact h0

end Told

namespace Sch
open Told
variable {F : Type} [Flt F]

/-! ## The result does not change -/

theorem tell_component_loop (d : Component F) (s : Str) (rest : List Str) :
    tellComponentLoop d (s :: rest) =
    if s = str! "$EndComp" then of (.ok (d, s :: rest))
    else if firstWord s = some (str! "L") then of (parseComponentL s d) >>= fun d => tellComponentLoop d rest
    else if firstWord s = some (str! "U") then tellComponentLoop { d with u := s } rest
    else if firstWord s = some (str! "P") then of (parseComponentP s d) >>= fun d => tellComponentLoop d rest
    else if firstWord s = some (str! "F") then of (parseComponentF s d) >>= fun d => tellComponentLoop d rest
    else if firstWord s = some (str! "1") ∨ firstWord s = some (str! "0") then
      match rest with
      | [] => of .panic
      | s2 :: rest2 => of (parseRotation s2) >>= fun r => tellComponentLoop { d with rotation := r } rest2
    else if firstWord s = some (str! "AR") then tellComponentLoop { d with arPath := d.arPath ++ [s] } rest
    else say (componentNotice s) >>= fun _ => tellComponentLoop d rest := by
  rw [tellComponentLoop.eq_def]
  rfl

theorem tellComponentLoop_res : ∀ (n : Nat) (p : List Str) (d : Component F), p.length ≤ n →
    (tellComponentLoop d p).res = parseComponentLoop d p := by
  intro n
  induction n with
  | zero =>
    intro p d hn
    cases p with
    | nil => rw [tellComponentLoop.eq_def, parseComponentLoop.eq_def]; rfl
    | cons => simp at hn
  | succ n ih =>
    intro p d hn
    cases p with
    | nil => rw [tellComponentLoop.eq_def, parseComponentLoop.eq_def]; rfl
    | cons s p =>
      simp only [List.length_cons, Nat.succ_le_succ_iff] at hn
      rw [tell_component_loop, component_loop]
      have ih' := fun d => ih p d hn
      repeat' split
      all_goals first
        | rfl
        | exact ih' _
        | (rw [say_res]; exact ih' _)
        | (rw [bind_res]; simp only [of_res, ih']; done)
        | (rw [bind_res]; simp only [of_res]; congr 1; funext r; exact ih _ _ (by simp at hn; omega))
        | (rename_i e; cases e; rw [bind_res]; simp only [of_res]; congr 1; funext r; exact ih _ _ (by simp at hn; omega))
        | simp_all

theorem tellSheetLoop_res (p : List Str) : ∀ d : Sheet, (tellSheetLoop d p).res = parseSheetLoop d p := by
  induction p with
  | nil => intro d; rfl
  | cons s p ih =>
    intro d
    rw [tellSheetLoop, parseSheetLoop]
    split
    · rfl
    cases firstWord s with
    | none => exact ih d
    | some w =>
      dsimp only
      repeat' split
      all_goals first
        | (rw [say_res]; exact ih _)
        | (rw [bind_res]; simp only [of_res, ih])

theorem tellItem_res (sch : Schematic F) (p : List Str) : (tellItem sch p).res = parseItem sch p := by
  unfold tellItem
  rw [bind_res, of_res]
  cases hp : here p with
  | ok s =>
    rw [Res.bind_ok]
    cases hw : firstWord s with
    | none => simp only [parseItem, hp, Res.bind_ok, hw]; rfl
    | some w =>
      dsimp only
      split
      · rfl
      rename_i h1
      split
      · rename_i h2
        rw [bind_res]
        simp only [parseItem, hp, Res.bind_ok, hw, h2]
        rw [if_neg (by decide), if_pos trivial]
        simp only [tellComponent, tellComponentLoop_res _ _ _ (Nat.le_refl _), parseComponent, of_res]
      rename_i h2
      split
      · rename_i h3
        rw [bind_res]
        simp only [parseItem, hp, Res.bind_ok, hw, h3]
        rw [if_neg (by decide), if_neg (by decide), if_pos trivial]
        simp only [tellSheet, tellSheetLoop_res, parseSheet, of_res]
      · rfl
  | err e => simp only [parseItem, hp]; rfl
  | panic => simp only [parseItem, hp]; rfl
  | diverge => simp only [parseItem, hp]; rfl

theorem tellItems_res (n : Nat) : ∀ (sch : Schematic F) (p : List Str), (tellItems n sch p).res = parseItems n sch p := by
  induction n with
  | zero => intro sch p; cases p <;> rfl
  | succ n ih =>
    intro sch p
    cases p with
    | nil => rfl
    | cons s p =>
      rw [tellItems, parseItems, bind_res, tellItem_res]
      · congr 1
        funext r
        exact ih _ _
      · simp
      · simp

theorem tellLines_res (fn : Option Str) (v : List Str) : (tellLines fn v : Told (Schematic F)).res = parseLines fn v := by
  unfold tellLines parseLines
  dsimp only
  rw [bind_res, of_res]
  congr 1
  funext p
  rw [bind_res, of_res]
  congr 1
  funext s
  split
  · rfl
  · rw [bind_res, of_res]
    congr 1
    funext p
    exact tellItems_res _ _ _

/-! ## What is printed for a block -/

theorem compSkips_out {ls : List Str} {es : List (CompEntry F)} (h : CompLines ls es) : ∀ {sk : List Str}, CompSkips ls sk →
    ∀ (q : List Str) (d : Component F), (tellComponentLoop d (ls ++ str! "$EndComp" :: q)).out = sk.map componentNotice := by
  have he : firstWord (str! "$EndComp") = some (str! "$EndComp") := by decide
  have nb : ∀ {w l : Str}, BeginsWith w l → w ∈ compWords → l ≠ str! "$EndComp" := fun hb hw =>
    ne_of_begins hb he fun e => by subst e; revert hw; decide
  have un : ∀ {w w' l : Str}, BeginsWith w l → BeginsWith w' l → w = w' := fun h h' => by
    rw [← firstWord_iff] at h h'
    exact Option.some.inj (h.symm.trans h')
  induction h with
  | nil =>
    intro sk hs q d
    cases hs
    rw [List.nil_append, tell_component_loop, if_pos rfl]; rfl
  | @names l n r rest ls es hb hw h ih =>
    intro sk hs q d
    have hb' := (firstWord_iff ..).2 hb
    cases hs with
    | entry _ _ hs =>
      rw [List.cons_append, tell_component_loop, if_neg (nb hb (by decide)), if_pos hb',
        bind_of_out ((componentL_iff ..).2 ⟨_, _, _, hw, rfl⟩)]
      exact ih hs q _
    | rotation h1 _ => rcases h1 with h1 | h1 <;> exact absurd (un hb h1) (by decide)
    | other h1 _ => exact absurd hb (h1 _ (by decide))
  | @unit l ls es hb h ih =>
    intro sk hs q d
    have hb' := (firstWord_iff ..).2 hb
    cases hs with
    | entry _ _ hs =>
      rw [List.cons_append, tell_component_loop, if_neg (nb hb (by decide)), if_neg (by rw [hb']; decide), if_pos hb']
      exact ih hs q _
    | rotation h1 _ => rcases h1 with h1 | h1 <;> exact absurd (un hb h1) (by decide)
    | other h1 _ => exact absurd hb (h1 _ (by decide))
  | @position l x y ls es hb hw h ih =>
    intro sk hs q d
    have hb' := (firstWord_iff ..).2 hb
    cases hs with
    | entry _ _ hs =>
      rw [List.cons_append, tell_component_loop, if_neg (nb hb (by decide)), if_neg (by rw [hb']; decide),
        if_neg (by rw [hb']; decide), if_pos hb', bind_of_out ((componentP_iff ..).2 ⟨_, _, hw, rfl⟩)]
      exact ih hs q _
    | rotation h1 _ => rcases h1 with h1 | h1 <;> exact absurd (un hb h1) (by decide)
    | other h1 _ => exact absurd hb (h1 _ (by decide))
  | @field l f ls es hb hw h ih =>
    intro sk hs q d
    have hb' := (firstWord_iff ..).2 hb
    cases hs with
    | entry _ _ hs =>
      rw [List.cons_append, tell_component_loop, if_neg (nb hb (by decide)), if_neg (by rw [hb']; decide),
        if_neg (by rw [hb']; decide), if_neg (by rw [hb']; decide), if_pos hb',
        bind_of_out ((componentF_iff ..).2 ⟨_, hw, rfl⟩)]
      exact ih hs q _
    | rotation h1 _ => rcases h1 with h1 | h1 <;> exact absurd (un hb h1) (by decide)
    | other h1 _ => exact absurd hb (h1 _ (by decide))
  | @rotation l m r ls es hb hw h ih =>
    intro sk hs q d
    cases hs with
    | rotation _ hs =>
      have hne : l ≠ str! "$EndComp" := hb.elim (fun hb => nb hb (by decide)) (fun hb => nb hb (by decide))
      simp only [← firstWord_iff] at hb
      rw [List.cons_append, tell_component_loop, if_neg hne, if_neg (by rcases hb with hb | hb <;> (rw [hb]; decide)),
        if_neg (by rcases hb with hb | hb <;> (rw [hb]; decide)), if_neg (by rcases hb with hb | hb <;> (rw [hb]; decide)),
        if_neg (by rcases hb with hb | hb <;> (rw [hb]; decide)), if_pos hb]
      simp only [List.cons_append]
      rw [bind_of_out ((rotation_iff ..).2 hw)]
      exact ih hs q _
    | entry h1 h2 _ => rcases hb with hb | hb <;> (have := un hb h2; subst this; exact absurd h1 (by decide))
    | other h1 _ => rcases hb with hb | hb <;> exact absurd hb (h1 _ (by decide))
  | @path l ls es hb h ih =>
    intro sk hs q d
    have hb' := (firstWord_iff ..).2 hb
    cases hs with
    | entry _ _ hs =>
      rw [List.cons_append, tell_component_loop, if_neg (nb hb (by decide)), if_neg (by rw [hb']; decide),
        if_neg (by rw [hb']; decide), if_neg (by rw [hb']; decide), if_neg (by rw [hb']; decide),
        if_neg (by rw [hb']; decide), if_pos hb']
      exact ih hs q _
    | rotation h1 _ => rcases h1 with h1 | h1 <;> exact absurd (un hb h1) (by decide)
    | other h1 _ => exact absurd hb (h1 _ (by decide))
  | @other l ls es hb hne h ih =>
    intro sk hs q d
    cases hs with
    | other _ hs =>
      simp only [compWords, List.forall_mem_cons, ← firstWord_iff] at hb
      rw [List.cons_append, tell_component_loop, if_neg hne, if_neg hb.1, if_neg hb.2.1, if_neg hb.2.2.1,
        if_neg hb.2.2.2.1, if_neg (not_or.2 ⟨hb.2.2.2.2.1, hb.2.2.2.2.2.1⟩), if_neg hb.2.2.2.2.2.2.1, say_out,
        ih hs q]
      rfl
    | entry h1 h2 _ =>
      refine absurd h2 (hb _ ?_)
      revert h1
      simp only [compWords, List.mem_cons, List.not_mem_nil, or_false]
      rintro (h | h | h | h | h) <;> simp [h]
    | rotation h1 _ => rcases h1 with h1 | h1 <;> exact absurd h1 (hb _ (by decide))

theorem compSkips_total {ls : List Str} {es : List (CompEntry F)} (h : CompLines ls es) : ∃ sk, CompSkips ls sk := by
  induction h with
  | nil => exact ⟨[], .nil⟩
  | names hb _ _ ih => obtain ⟨sk, h⟩ := ih; exact ⟨sk, .entry (by decide) hb h⟩
  | unit hb _ ih => obtain ⟨sk, h⟩ := ih; exact ⟨sk, .entry (by decide) hb h⟩
  | position hb _ _ ih => obtain ⟨sk, h⟩ := ih; exact ⟨sk, .entry (by decide) hb h⟩
  | field hb _ _ ih => obtain ⟨sk, h⟩ := ih; exact ⟨sk, .entry (by decide) hb h⟩
  | rotation hb _ _ ih => obtain ⟨sk, h⟩ := ih; exact ⟨sk, .rotation hb h⟩
  | path hb _ ih => obtain ⟨sk, h⟩ := ih; exact ⟨sk, .entry (by decide) hb h⟩
  | other hb _ _ ih => obtain ⟨sk, h⟩ := ih; exact ⟨_, .other hb h⟩

theorem tell_sheet_known (d : Sheet) {l : Str} (hne : l ≠ str! "$EndSheet")
    (hb : BeginsWith (str! "S") l ∨ BeginsWith (str! "U") l ∨ ∃ n, BeginsWith ('F' :: n) l) (rest : List Str) :
    ∃ r : Res Sheet, tellSheetLoop d (l :: rest) = (of r >>= fun d => tellSheetLoop d rest) ∧
      parseSheetLoop d (l :: rest) = (r >>= fun d => parseSheetLoop d rest) := by
  rcases hb with hb | hb | ⟨n, hb⟩
  · refine ⟨parseSheetS l d, ?_, ?_⟩
    · rw [tellSheetLoop, if_neg hne, (firstWord_iff ..).2 hb]; rfl
    · rw [parseSheetLoop, if_neg hne, (firstWord_iff ..).2 hb]; rfl
  · refine ⟨parseSheetU l d, ?_, ?_⟩
    · rw [tellSheetLoop, if_neg hne, (firstWord_iff ..).2 hb]; rfl
    · rw [parseSheetLoop, if_neg hne, (firstWord_iff ..).2 hb]; rfl
  · refine ⟨parseSheetF l d ('F' :: n), ?_, sheet_F hb d rest⟩
    rw [tellSheetLoop, if_neg hne, (firstWord_iff ..).2 hb]
    dsimp only
    rw [if_neg (by simp), if_neg (by simp), if_pos (show startsWith ('F' :: n) (str! "F") = true from
      List.isPrefixOf_iff_prefix.2 ⟨n, rfl⟩)]

theorem tell_sheet_other (d : Sheet) {l : Str} (hne : l ≠ str! "$EndSheet") (hs : ¬ BeginsWith (str! "S") l)
    (hu : ¬ BeginsWith (str! "U") l) (hf : ∀ n, ¬ BeginsWith ('F' :: n) l) (rest : List Str) :
    tellSheetLoop d (l :: rest) = (say (sheetNotice l) >>= fun _ => tellSheetLoop d rest) := by
  rw [tellSheetLoop, if_neg hne]
  cases hw : firstWord l with
  | none => rfl
  | some w =>
    simp only [← firstWord_iff, hw, Option.some.injEq] at hs hu hf
    dsimp only
    rw [if_neg hs, if_neg hu, if_neg]
    · rfl
    · intro hF
      obtain ⟨n, e⟩ := List.isPrefixOf_iff_prefix.1 hF
      exact hf n e.symm

/-- The lines of a sheet before its end: none of them is the end, and the known ones are read. -/
theorem sheetSkips_out {ls : List Str} {sk : List Str} (h : SheetSkips ls sk) : ∀ (d c : Sheet) (q : List Str),
    str! "$EndSheet" ∉ ls → parseSheetLoop d (ls ++ str! "$EndSheet" :: q) = .ok (c, str! "$EndSheet" :: q) →
    (tellSheetLoop d (ls ++ str! "$EndSheet" :: q)).out = sk.map sheetNotice := by
  induction h with
  | nil => intro d c q _ _; rw [List.nil_append, tellSheetLoop, if_pos rfl]; rfl
  | @entry l ls sk hb h ih =>
    intro d c q hn hr
    simp only [List.mem_cons, not_or] at hn
    obtain ⟨r, h1, h2⟩ := tell_sheet_known d (fun e => hn.1 e.symm) hb (ls ++ str! "$EndSheet" :: q)
    rw [List.cons_append] at hr ⊢
    rw [h2] at hr
    obtain ⟨d', hd, hr⟩ := Res.bind_eq_ok.1 hr
    rw [h1, bind_of_out hd]
    exact ih d' c q hn.2 hr
  | @other l ls sk hs hu hf h ih =>
    intro d c q hn hr
    simp only [List.mem_cons, not_or] at hn
    have ht := tell_sheet_other d (fun e => hn.1 e.symm) hs hu hf (ls ++ str! "$EndSheet" :: q)
    rw [List.cons_append] at hr ⊢
    have hr' : (tellSheetLoop d (ls ++ str! "$EndSheet" :: q)).res = .ok (c, str! "$EndSheet" :: q) := by
      rw [← hr, ← tellSheetLoop_res, ht, say_res]
    rw [ht, say_out, ih d c q hn.2 (by rw [← tellSheetLoop_res]; exact hr')]
    rfl

theorem sheetLines_noEnd {ls : List Str} {es : List SheetEntry} (h : SheetLines ls es) : str! "$EndSheet" ∉ ls := by
  have he : firstWord (str! "$EndSheet") = some (str! "$EndSheet") := by decide
  have nF : ∀ {l : Str} {i : Int}, Numbered l i → l ≠ str! "$EndSheet" := by
    rintro l i ⟨n, hb, _⟩
    exact ne_of_begins hb he (by simp)
  induction h with
  | nil => simp
  | box hb _ _ ih => rw [List.mem_cons, not_or]; exact ⟨(ne_of_begins hb he (by decide)).symm, ih⟩
  | unique hb _ _ ih => rw [List.mem_cons, not_or]; exact ⟨(ne_of_begins hb he (by decide)).symm, ih⟩
  | name hb _ _ ih => rw [List.mem_cons, not_or]; exact ⟨(nF hb).symm, ih⟩
  | file hb _ _ ih => rw [List.mem_cons, not_or]; exact ⟨(nF hb).symm, ih⟩
  | label hb _ _ _ _ ih => rw [List.mem_cons, not_or]; exact ⟨(nF hb).symm, ih⟩
  | other _ _ _ hne _ ih => rw [List.mem_cons, not_or]; exact ⟨hne.symm, ih⟩

theorem sheetSkips_total {ls : List Str} {es : List SheetEntry} (h : SheetLines ls es) : ∃ sk, SheetSkips ls sk := by
  induction h with
  | nil => exact ⟨[], .nil⟩
  | box hb _ _ ih => obtain ⟨sk, h⟩ := ih; exact ⟨sk, .entry (.inl hb) h⟩
  | unique hb _ _ ih => obtain ⟨sk, h⟩ := ih; exact ⟨sk, .entry (.inr (.inl hb)) h⟩
  | name hb _ _ ih => obtain ⟨sk, h⟩ := ih; obtain ⟨n, hb, _⟩ := hb; exact ⟨sk, .entry (.inr (.inr ⟨n, hb⟩)) h⟩
  | file hb _ _ ih => obtain ⟨sk, h⟩ := ih; obtain ⟨n, hb, _⟩ := hb; exact ⟨sk, .entry (.inr (.inr ⟨n, hb⟩)) h⟩
  | label hb _ _ _ _ ih => obtain ⟨sk, h⟩ := ih; obtain ⟨n, hb, _⟩ := hb; exact ⟨sk, .entry (.inr (.inr ⟨n, hb⟩)) h⟩
  | other hs hu hf _ _ ih => obtain ⟨sk, h⟩ := ih; exact ⟨_, .other hs hu hf h⟩

/-! ## Items -/

theorem tellItem_plain (sch : Schematic F) (s : Str) (rest : List Str) (hc : firstWord s ≠ some (str! "$Comp"))
    (hs : firstWord s ≠ some (str! "$Sheet")) : (tellItem sch (s :: rest)).out = [] := by
  unfold tellItem
  rw [show here (s :: rest) = .ok s from rfl, bind_of_ok]
  cases hw : firstWord s with
  | none => rfl
  | some w =>
    dsimp only
    split
    · rfl
    rw [if_neg (by rintro rfl; exact hc hw), if_neg (by rintro rfl; exact hs hw)]
    rfl

theorem tellItem_comp (sch : Schematic F) (s : Str) (rest : List Str) (hc : firstWord s = some (str! "$Comp")) :
    (tellItem sch (s :: rest)).out = (tellComponentLoop (.dflt : Component F) rest).out := by
  unfold tellItem
  rw [show here (s :: rest) = .ok s from rfl, bind_of_ok, hc]
  dsimp only
  rw [if_neg (by decide), if_pos rfl]
  show (tellComponentLoop (.dflt : Component F) rest >>= _).out = _
  cases h : (tellComponentLoop (.dflt : Component F) rest).res with
  | ok a => rw [bind_ok_out h]; simp
  | _ => rw [bind_fail_out (by simp [h])]

theorem tellItem_sheet (sch : Schematic F) (s : Str) (rest : List Str) (hc : firstWord s = some (str! "$Sheet")) :
    (tellItem sch (s :: rest)).out = (tellSheetLoop .dflt rest).out := by
  unfold tellItem
  rw [show here (s :: rest) = .ok s from rfl, bind_of_ok, hc]
  dsimp only
  rw [if_neg (by decide), if_neg (by decide), if_pos rfl]
  show (tellSheetLoop .dflt rest >>= _).out = _
  cases h : (tellSheetLoop .dflt rest).res with
  | ok a => rw [bind_ok_out h]; simp
  | _ => rw [bind_fail_out (by simp [h])]

theorem begins_unique {w w' l : Str} (h : BeginsWith w l) (h' : BeginsWith w' l) : w = w' := by
  rw [← firstWord_iff] at h h'
  exact Option.some.inj (h.symm.trans h')

theorem part_notices {a : List Str} {p : Part F} (h : PartLines a p) : ∃ ns, PartNotices a ns := by
  cases h with
  | descr hb h =>
    exact ⟨[], .plain (fun h' => absurd (begins_unique hb h') (by decide)) (fun h' => absurd (begins_unique hb h') (by decide))⟩
  | component hb h hd => obtain ⟨sk, hs⟩ := compSkips_total h; exact ⟨_, .component hb hs⟩
  | sheet hb h hd => obtain ⟨sk, hs⟩ := sheetSkips_total h; exact ⟨_, .sheet hb hs⟩
  | mark hb =>
    exact ⟨[], .plain (fun h' => absurd (begins_unique hb h') (by decide)) (fun h' => absurd (begins_unique hb h') (by decide))⟩
  | wire h =>
    obtain ⟨l, m, kind, third, _, _, _, _, rfl, hl, _⟩ := h
    have hb : BeginsWith (str! "Wire") l := ⟨_, hl⟩
    exact ⟨[], .plain (fun h' => absurd (begins_unique hb h') (by decide)) (fun h' => absurd (begins_unique hb h') (by decide))⟩
  | @connection l p h =>
    obtain ⟨_, _, _, hl, _⟩ := h
    have hb : BeginsWith (str! "Connection") l := ⟨_, hl⟩
    exact ⟨[], .plain (fun h' => absurd (begins_unique hb h') (by decide)) (fun h' => absurd (begins_unique hb h') (by decide))⟩
  | @noConnect l p h =>
    obtain ⟨_, _, _, hl, _⟩ := h
    have hb : BeginsWith (str! "NoConn") l := ⟨_, hl⟩
    exact ⟨[], .plain (fun h' => absurd (begins_unique hb h') (by decide)) (fun h' => absurd (begins_unique hb h') (by decide))⟩
  | text h =>
    obtain ⟨l, _, _, _, _, _, shape, _, _, _, rfl, hl, _⟩ := h
    have hb : BeginsWith (str! "Text") l := ⟨_, hl⟩
    exact ⟨[], .plain (fun h' => absurd (begins_unique hb h') (by decide)) (fun h' => absurd (begins_unique hb h') (by decide))⟩
  | other hb hw =>
    exact ⟨[], .plain (fun h' => hw (by rw [begins_unique hb h']; decide)) (fun h' => hw (by rw [begins_unique hb h']; decide))⟩

theorem part_tells {a : List Str} {p : Part F} (h : PartLines a p) {ns : List Str} (hn : PartNotices a ns)
    (sch : Schematic F) (q : List Str) : (tellItem sch (a ++ q)).out = ns := by
  cases hn with
  | @component l ls sk hb hs =>
    obtain ⟨s, r, i, p', hsr, h2, hq, -⟩ := part_read h q
    rw [List.cons_append, List.cons_append, List.append_assoc, tellItem_comp _ _ _ ((firstWord_iff ..).2 hb)]
    cases hsr
    -- the part read is a component
    have hc : ∃ c : Component F, parseComponent (l :: (ls ++ str! "$EndComp" :: q)) = .ok (c, p') := by
      unfold readItem at h2
      rw [show here (l :: ls ++ [str! "$EndComp"] ++ q) = .ok l from rfl, Res.bind_ok, (firstWord_iff ..).2 hb] at h2
      dsimp only at h2
      rw [if_neg (by decide), if_pos rfl] at h2
      obtain ⟨⟨c, r⟩, hd, h⟩ := Res.bind_eq_ok.1 h2
      cases h
      refine ⟨c, ?_⟩
      rw [← hd]
      simp
    obtain ⟨c, hc⟩ := hc
    obtain ⟨ls', es, he, h3, -⟩ := (component_iff l _ q c).1 ⟨_, hc, hq⟩
    have := List.append_cancel_right he
    subst this
    exact compSkips_out h3 hs q _
  | @sheet l ls sk hb hs =>
    obtain ⟨s, r, i, p', hsr, h2, hq, -⟩ := part_read h q
    rw [List.cons_append, List.cons_append, List.append_assoc, tellItem_sheet _ _ _ ((firstWord_iff ..).2 hb)]
    cases hsr
    have hc : ∃ c, parseSheet (l :: (ls ++ str! "$EndSheet" :: q)) = .ok (c, p') := by
      unfold readItem at h2
      rw [show here (l :: ls ++ [str! "$EndSheet"] ++ q) = .ok l from rfl, Res.bind_ok, (firstWord_iff ..).2 hb] at h2
      dsimp only at h2
      rw [if_neg (by decide), if_neg (by decide), if_pos rfl] at h2
      obtain ⟨⟨c, r⟩, hd, h⟩ := Res.bind_eq_ok.1 h2
      cases h
      refine ⟨c, ?_⟩
      rw [← hd]
      simp
    obtain ⟨c, hc⟩ := hc
    obtain ⟨ls', es, he, h3, -⟩ := (sheet_iff l _ q c).1 ⟨_, hc, hq⟩
    have := List.append_cancel_right he
    subst this
    have h4 := sheet_accept h3 q .dflt
    exact sheetSkips_out hs _ _ q (sheetLines_noEnd h3) h4
  | plain hc hs =>
    rw [List.cons_append]
    exact tellItem_plain _ _ _ (fun h => hc ((firstWord_iff ..).1 h)) (fun h => hs ((firstWord_iff ..).1 h))

theorem content_tells {b : List Str} {ns : List Str} (h : ContentNotices F b ns) : ∀ (n : Nat) (sch : Schematic F),
    b.length ≤ n → (tellItems n sch b).out = ns := by
  induction h with
  | nil => intro n sch _; cases n <;> rfl
  | @cons a b ns ms p h hn ht ih =>
    intro n sch hl
    obtain ⟨s, r, i, p', rfl, h2, hq, -⟩ := part_read h b
    cases n with
    | zero => simp at hl
    | succ n =>
      have h1 := part_tells h hn sch b
      have h3 : (tellItem sch (s :: r ++ b)).res = .ok (i.add sch, p') := by
        rw [tellItem_res, parseItem_eq, h2]; rfl
      rw [List.cons_append] at h1 h3 ⊢
      rw [tellItems, bind_ok_out h3, h1]
      · dsimp only
        rw [hq, ih]
        simp at hl
        omega
      · simp

theorem content_notices {b : List Str} {ps : List (Part F)} (h : ContentLines b ps) : ∃ ns, ContentNotices F b ns := by
  induction h with
  | nil => exact ⟨[], .nil⟩
  | cons h _ ih =>
    obtain ⟨ms, h2⟩ := ih
    obtain ⟨ns, h1⟩ := part_notices h
    exact ⟨_, .cons h h1 h2⟩

end Sch
end Verif

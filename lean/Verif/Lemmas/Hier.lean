import Verif.Spec.Hierarchy
import Verif.Lemmas.SchTerm
import Mathlib.Data.Fintype.Order
import Mathlib.Order.WellFounded
/-!
# Walking sheet hierarchies
-/

namespace Verif
open Sch Spec

set_option linter.unusedSectionVars false

variable {F : Type} [Flt F]

namespace Spec

theorem sheetsComponents_ok {sub : Sheet → Res (List (Component F))} : ∀ {l : List Sheet}
    {v r : List (Component F)}, sheetsComponents sub l v = .ok r →
    ∃ vs, List.Forall₂ (fun sheet v => sub sheet = .ok v) l vs ∧ r = v ++ vs.flatten
  | [], v, r, h => by
    simp only [sheetsComponents, Res.ok.injEq] at h
    exact ⟨[], .nil, by simp [h]⟩
  | sheet :: l, v, r, h => by
    simp only [sheetsComponents, Res.bind_eq_ok] at h
    obtain ⟨v2, h2, h⟩ := h
    obtain ⟨vs, hvs, rfl⟩ := sheetsComponents_ok h
    exact ⟨v2 :: vs, .cons h2 hvs, by simp⟩

theorem sheetsComponents_of {sub : Sheet → Res (List (Component F))} : ∀ {l : List Sheet}
    {vs : List (List (Component F))} (v : List (Component F)),
    List.Forall₂ (fun sheet v => sub sheet = .ok v) l vs → sheetsComponents sub l v = .ok (v ++ vs.flatten)
  | [], _, v, .nil => by simp [sheetsComponents]
  | sheet :: l, _, v, .cons (b := v2) (l₂ := vs) h hs => by
    simp only [sheetsComponents, h, Res.bind_ok]
    rw [sheetsComponents_of (v ++ v2) hs]
    simp

/-- A result comes from a stored hierarchy. -/
theorem hier_of_all (w : World) : ∀ (fuel : Nat) (s : Schematic F) (v : List (Component F)),
    allComponents w fuel s = .ok v →
    ∃ h : Hier F, h.root = s ∧ Stored w h ∧ v = h.components ∧ h.depth ≤ fuel
  | 0, _, _, h => by simp [allComponents] at h
  | fuel + 1, s, v, h => by
    rw [allComponents] at h
    obtain ⟨vs, hvs, rfl⟩ := sheetsComponents_ok h
    have : ∃ hs : List (Hier F), StoredAll w s s.sheets hs ∧ vs.flatten = componentsAll hs ∧
        depthAll hs ≤ fuel := by
      generalize s.sheets = l at hvs
      clear h
      induction hvs with
      | nil => exact ⟨[], trivial, rfl, Nat.zero_le _⟩
      | cons hd _ ih =>
        obtain ⟨hs, h1, h2, h3⟩ := ih
        obtain ⟨sub, hsub, hv⟩ := Res.bind_eq_ok.1 hd
        obtain ⟨h, hr, hst, hc, hdep⟩ := hier_of_all w fuel sub _ hv
        refine ⟨h :: hs, ⟨by rw [hr]; exact hsub, hst, h1⟩, ?_, ?_⟩
        · rw [List.flatten_cons, h2, hc]; rfl
        · exact Nat.max_le.2 ⟨hdep, h3⟩
    obtain ⟨hs, h1, h2, h3⟩ := this
    exact ⟨.node s hs, rfl, h1, by rw [h2]; rfl, Nat.succ_le_succ h3⟩

mutual
theorem all_of_hier (w : World) : ∀ (h : Hier F), Stored w h → ∀ fuel, h.depth ≤ fuel →
    allComponents w fuel h.root = .ok h.components
  | .node s subs, hst, fuel, hd => by
    cases fuel with
    | zero => simp [Hier.depth] at hd
    | succ fuel =>
      have hd' : depthAll subs ≤ fuel := Nat.le_of_succ_le_succ hd
      show allComponents w (fuel + 1) s = _
      rw [allComponents]
      obtain ⟨vs, hvs, he⟩ := all_of_hiers w s s.sheets subs hst fuel hd'
      rw [sheetsComponents_of _ hvs, he]
      rfl
theorem all_of_hiers (w : World) (s : Schematic F) : ∀ (l : List Sheet) (hs : List (Hier F)),
    StoredAll w s l hs → ∀ fuel, depthAll hs ≤ fuel →
    ∃ vs, List.Forall₂ (fun sheet v => (parseFileForSheet w s sheet >>= fun sub =>
      allComponents w fuel sub) = .ok v) l vs ∧ vs.flatten = componentsAll hs
  | [], [], _, _, _ => ⟨[], .nil, rfl⟩
  | sheet :: l, h :: hs, ⟨h1, h2, h3⟩, fuel, hd => by
    have hd' := Nat.max_le.1 (show max h.depth (depthAll hs) ≤ fuel from hd)
    obtain ⟨vs, hvs, he⟩ := all_of_hiers w s l hs h3 fuel hd'.2
    refine ⟨h.components :: vs, .cons ?_ hvs, ?_⟩
    · rw [h1, Res.bind_ok, all_of_hier w h h2 fuel hd'.1]
    · rw [List.flatten_cons, he]; rfl
  | [], _ :: _, h, _, _ => by simp [StoredAll] at h
  | _ :: _, [], h, _, _ => by simp [StoredAll] at h
end

/-- A list of sheets is walked to its end, or ends with an error or panic. -/
theorem sheetsComponents_ends {sub : Sheet → Res (List (Component F))} : ∀ {l : List Sheet}
    (v : List (Component F)), (∀ s ∈ l, (sub s).Ends) → (sheetsComponents sub l v).Ends
  | [], v, _ => by rw [sheetsComponents]; exact Res.ends_ok _
  | s :: l, v, h => by
    rw [List.forall_mem_cons] at h
    rw [sheetsComponents]
    exact Res.ends_bind h.1 fun v2 _ => sheetsComponents_ends _ h.2

/-- What a walk gave does not change when the walks of the sheets give more. -/
theorem sheetsComponents_mono {sub sub' : Sheet → Res (List (Component F))} : ∀ {l : List Sheet}
    (v : List (Component F)), (∀ s ∈ l, (sub s).Ends → sub' s = sub s) →
    (sheetsComponents sub l v).Ends → sheetsComponents sub' l v = sheetsComponents sub l v
  | [], v, _, _ => rfl
  | s :: l, v, h, he => by
    rw [List.forall_mem_cons] at h
    rw [sheetsComponents] at he ⊢
    have hs : (sub s).Ends := fun hd => he (by rw [hd]; rfl)
    rw [h.1 hs, sheetsComponents]
    cases hsub : sub s with
    | ok v2 =>
      rw [hsub] at he
      exact sheetsComponents_mono _ h.2 he
    | _ => rfl

/-- The depth bound only matters when it is hit. -/
theorem all_succ (w : World) : ∀ (fuel : Nat) (s : Schematic F), (allComponents w fuel s).Ends →
    allComponents w (fuel + 1) s = allComponents w fuel s
  | 0, s, h => absurd rfl h
  | fuel + 1, s, h => by
    rw [allComponents] at h ⊢
    rw [allComponents]
    refine sheetsComponents_mono _ (fun sheet _ hs => ?_) h
    cases hp : parseFileForSheet w s sheet with
    | ok sub =>
      rw [hp] at hs
      exact all_succ w fuel sub hs
    | _ => rfl

theorem all_add (w : World) (fuel : Nat) (s : Schematic F) (h : (allComponents w fuel s).Ends) :
    ∀ k, allComponents w (fuel + k) s = allComponents w fuel s
  | 0 => rfl
  | k + 1 => by
    have ih := all_add w fuel s h k
    rw [← ih] at h
    rw [← Nat.add_assoc, all_succ w _ s h, ih]

theorem all_le (w : World) {n m : Nat} (h : n ≤ m) (s : Schematic F) (he : (allComponents w n s).Ends) :
    allComponents w m s = allComponents w n s := by
  obtain ⟨k, rfl⟩ := Nat.exists_eq_add_of_le h
  exact all_add w n s he k

theorem parseFileForSheet_ends (w : World) (s : Schematic F) (sheet : Sheet) :
    (parseFileForSheet w s sheet).Ends := by
  unfold parseFileForSheet filenameForSheet parseFile
  refine Res.ends_bind ?_ fun f _ => ?_
  · split
    · exact Res.ends_err _
    · split
      · exact Res.ends_err _
      · exact Res.ends_ok _
  · split
    · exact Res.ends_err _
    · exact parse_ends _ _

/-- Where the sheets lead down only finitely often, the walk ends. -/
theorem all_ends_of_acc (w : World) (s : Schematic F) (h : Acc (fun a b => SubSheet w b a) s) :
    ∃ n, (allComponents w n s).Ends := by
  induction h with
  | intro s _ ih =>
    have : ∃ n, ∀ sheet ∈ s.sheets, ∀ sub, parseFileForSheet w s sheet = .ok sub →
        (allComponents w n sub).Ends := by
      have key : ∀ l : List Sheet, (∀ x ∈ l, x ∈ s.sheets) → ∃ n, ∀ sheet ∈ l, ∀ sub,
          parseFileForSheet w s sheet = .ok sub → (allComponents w n sub).Ends := by
        intro l
        induction l with
        | nil => intro _; exact ⟨0, by simp⟩
        | cons x l ihl =>
          intro hl
          rw [List.forall_mem_cons] at hl
          obtain ⟨n, hn⟩ := ihl hl.2
          by_cases hx : ∃ sub, parseFileForSheet w s x = .ok sub
          · obtain ⟨sub, hsub⟩ := hx
            obtain ⟨m, hm⟩ := ih sub ⟨x, hl.1, hsub⟩
            refine ⟨max n m, ?_⟩
            rw [List.forall_mem_cons]
            constructor
            · intro sub' hs'
              rw [hsub] at hs'
              cases hs'
              rw [all_le w (Nat.le_max_right n m) _ hm]; exact hm
            · intro y hy sub' hs'
              have := hn y hy sub' hs'
              rw [all_le w (Nat.le_max_left n m) _ this]; exact this
          · refine ⟨n, ?_⟩
            rw [List.forall_mem_cons]
            exact ⟨fun sub hs => absurd ⟨sub, hs⟩ hx, hn⟩
      exact key _ fun _ h => h
    obtain ⟨n, hn⟩ := this
    refine ⟨n + 1, ?_⟩
    rw [allComponents]
    refine sheetsComponents_ends _ fun sheet hs => ?_
    refine Res.ends_bind (parseFileForSheet_ends w s sheet) fun sub hsub => hn sheet hs sub hsub

theorem below_trans {w : World} {a b c : Schematic F} (h1 : Below w a b) (h2 : Below w b c) :
    Below w a c := by
  induction h1 with
  | one h => exact .more h h2
  | more h _ ih => exact .more h (ih h2)

theorem below_snoc {w : World} {a b c : Schematic F} (h1 : Below w a b) (h2 : SubSheet w b c) :
    Below w a c := below_trans h1 (.one h2)

/-- A schematic below another is what some readable file contains. -/
theorem below_file {w : World} {a b : Schematic F} (h : Below w a b) :
    ∃ f, w.read f ≠ none ∧ parseFile w f = .ok b := by
  have key : ∀ {a b : Schematic F}, SubSheet w a b → ∃ f, w.read f ≠ none ∧ parseFile w f = .ok b := by
    rintro a b ⟨sheet, _, h⟩
    unfold parseFileForSheet at h
    obtain ⟨f, _, h⟩ := Res.bind_eq_ok.1 h
    refine ⟨f, fun hn => ?_, h⟩
    simp [parseFile, hn] at h
  induction h with
  | one h => exact key h
  | more _ _ ih => exact ih

/-- With finitely many readable files, no cycle means that sheets lead down only
finitely often. -/
theorem acc_of_acyclic (w : World) (s : Schematic F) (files : List Str)
    (hf : ∀ f, w.read f ≠ none → f ∈ files) (hs : ∀ t, t = s ∨ Below w s t → ¬ Below w t t) :
    Acc (fun a b => SubSheet w b a) s := by
  classical
  let T := {t : Schematic F // Below w s t}
  have hfin : Finite T := by
    let g : T → {f // f ∈ files} := fun t =>
      ⟨(below_file t.2).choose, hf _ (below_file t.2).choose_spec.1⟩
    have hinj : Function.Injective g := by
      rintro ⟨a, ha⟩ ⟨b, hb⟩ hab
      have h1 := (below_file ha).choose_spec.2
      have h2 := (below_file hb).choose_spec.2
      have h3 : (below_file ha).choose = (below_file hb).choose := congrArg Subtype.val hab
      rw [h3, h2] at h1
      exact Subtype.ext (Res.ok.inj h1).symm
    exact Finite.of_injective g hinj
  let r : T → T → Prop := fun a b => Below w b.1 a.1
  have : IsTrans T r := ⟨fun a b c h1 h2 => below_trans h2 h1⟩
  have : Std.Irrefl r := ⟨fun a => hs a.1 (Or.inr a.2)⟩
  have hwf : WellFounded r := Finite.wellFounded_of_trans_of_irrefl r
  have key : ∀ t : T, Acc (fun a b => SubSheet w b a) t.1 := by
    intro t
    induction t using hwf.induction with
    | h t ih =>
      exact ⟨_, fun u hu => ih ⟨u, below_snoc t.2 hu⟩ (.one hu)⟩
  exact ⟨_, fun u hu => key ⟨u, .one hu⟩⟩

theorem storedAll_mem {w : World} {s : Schematic F} : ∀ {l : List Sheet} {hs : List (Hier F)},
    StoredAll w s l hs → ∀ sheet ∈ l, ∃ h ∈ hs, parseFileForSheet w s sheet = .ok h.root ∧ Stored w h
  | [], [], _, _, h => by simp at h
  | x :: l, h :: hs, ⟨h1, h2, h3⟩, sheet, hx => by
    rcases List.mem_cons.1 hx with rfl | hx
    · exact ⟨h, by simp, h1, h2⟩
    · obtain ⟨k, hk, h⟩ := storedAll_mem h3 sheet hx
      exact ⟨k, by simp [hk], h⟩
  | [], _ :: _, h, _, _ => by simp [StoredAll] at h
  | _ :: _, [], h, _, _ => by simp [StoredAll] at h

theorem depth_mem : ∀ {hs : List (Hier F)} {h : Hier F}, h ∈ hs → h.depth ≤ depthAll hs
  | k :: hs, h, hm => by
    rcases List.mem_cons.1 hm with rfl | hm
    · exact Nat.le_max_left _ _
    · exact Nat.le_trans (depth_mem hm) (Nat.le_max_right _ _)

/-- Below a stored hierarchy there are only smaller stored hierarchies. -/
theorem below_depth {w : World} {s t : Schematic F} (hb : Below w s t) : ∀ h : Hier F, h.root = s →
    Stored w h → ∃ k : Hier F, k.root = t ∧ Stored w k ∧ k.depth < h.depth := by
  have one : ∀ {s t : Schematic F}, SubSheet w s t → ∀ h : Hier F, h.root = s →
      Stored w h → ∃ k : Hier F, k.root = t ∧ Stored w k ∧ k.depth < h.depth := by
    rintro s t ⟨sheet, hm, hp⟩ ⟨s', subs⟩ rfl hst
    obtain ⟨k, hk, hkp, hks⟩ := storedAll_mem hst sheet hm
    refine ⟨k, ?_, hks, ?_⟩
    · have := hp.symm.trans hkp
      exact (Res.ok.inj this).symm
    · exact Nat.lt_succ_of_le (depth_mem hk)
  induction hb with
  | one h => exact one h
  | more h _ ih =>
    intro k hk hst
    obtain ⟨k1, h1, h2, h3⟩ := one h k hk hst
    obtain ⟨k2, h4, h5, h6⟩ := ih k1 h1 h2
    exact ⟨k2, h4, h5, by omega⟩

mutual
/-- Two stored hierarchies of the same schematic are the same. -/
theorem hier_unique (w : World) : ∀ h k : Hier F, Stored w h → Stored w k → h.root = k.root → h = k
  | .node s subs, .node s' subs', h1, h2, h => by
    cases h
    rw [hiers_unique w s s.sheets subs subs' h1 h2]
theorem hiers_unique (w : World) (s : Schematic F) : ∀ (l : List Sheet) (hs ks : List (Hier F)),
    StoredAll w s l hs → StoredAll w s l ks → hs = ks
  | [], [], [], _, _ => rfl
  | _ :: l, h :: hs, k :: ks, ⟨a1, a2, a3⟩, ⟨b1, b2, b3⟩ => by
    rw [hier_unique w h k a2 b2 (Res.ok.inj (a1.symm.trans b1)), hiers_unique w s l hs ks a3 b3]
  | [], _ :: _, _, h, _ => by simp [StoredAll] at h
  | _ :: _, [], _, h, _ => by simp [StoredAll] at h
  | [], [], _ :: _, _, h => by simp [StoredAll] at h
  | _ :: _, _ :: _, [], _, h => by simp [StoredAll] at h
end

/-- No walk through a cycle ends normally. -/
theorem not_ok_of_cycle (w : World) (s t : Schematic F) (ht : t = s ∨ Below w s t) (hc : Below w t t) :
    ∀ n v, allComponents w n s ≠ .ok v := by
  intro n v h
  obtain ⟨k, hk, hst, _⟩ := hier_of_all w n s v h
  have : ∃ k : Hier F, k.root = t ∧ Stored w k := by
    rcases ht with rfl | hb
    · exact ⟨k, hk, hst⟩
    · obtain ⟨k', h1, h2, _⟩ := below_depth hb k hk hst
      exact ⟨k', h1, h2⟩
  obtain ⟨k, hk, hst⟩ := this
  obtain ⟨k', h1, h2, h3⟩ := below_depth hc k hk hst
  rw [hier_unique w k' k h2 hst (h1.trans hk.symm)] at h3
  omega

theorem sheetsComponents_not_err {sub : Sheet → Res (List (Component F))} : ∀ {l : List Sheet}
    (v : List (Component F)), (∀ s ∈ l, (∃ x, sub s = .ok x) ∨ sub s = .diverge) →
    (∃ x, sheetsComponents sub l v = .ok x) ∨ sheetsComponents sub l v = .diverge
  | [], v, _ => Or.inl ⟨v, rfl⟩
  | s :: l, v, h => by
    rw [List.forall_mem_cons] at h
    rw [sheetsComponents]
    rcases h.1 with ⟨x, hx⟩ | hx
    · rw [hx]; exact sheetsComponents_not_err _ h.2
    · rw [hx]; exact Or.inr rfl

/-- If every sheet of the hierarchy can be read, there is no error. -/
theorem all_not_err (w : World) : ∀ (n : Nat) (s : Schematic F),
    (∀ t, t = s ∨ Below w s t → ∀ sheet ∈ t.sheets, ∃ u, parseFileForSheet w t sheet = .ok u) →
    (∃ v, allComponents w n s = .ok v) ∨ allComponents w n s = .diverge
  | 0, _, _ => Or.inr rfl
  | n + 1, s, h => by
    rw [allComponents]
    refine sheetsComponents_not_err _ fun sheet hs => ?_
    obtain ⟨u, hu⟩ := h s (Or.inl rfl) sheet hs
    rw [hu]
    refine all_not_err w n u fun t ht => h t (Or.inr ?_)
    rcases ht with rfl | ht
    · exact .one ⟨sheet, hs, hu⟩
    · exact .more ⟨sheet, hs, hu⟩ ht

end Spec

end Verif

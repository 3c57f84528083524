import Verif.Model.CheckFix
/-!
# C54: collecting style findings loses nothing
-/

namespace Verif
open CheckFixData

mutual
/-- The findings in a tree of findings, left to right, with their depth. -/
def Spec.leaves (depth : Nat) : CheckFixData → List (Nat × CheckFixItem)
  | .item i => [(depth, i)]
  | .more v => Spec.leavesAll (depth + 1) v
/-- The findings in a list of trees. -/
def Spec.leavesAll (depth : Nat) : List CheckFixData → List (Nat × CheckFixItem)
  | [] => []
  | d :: ds => Spec.leaves depth d ++ Spec.leavesAll depth ds
end

mutual
theorem Spec.dump_more (indent : Nat) : ∀ v : List CheckFixData,
    dump indent (.more v) = Spec.leavesAll indent v
  | v => by rw [dump, Spec.dumpAll_eq indent v]
theorem Spec.dumpAll_eq (indent : Nat) : ∀ v : List CheckFixData,
    dumpAll indent v = Spec.leavesAll indent v
  | [] => rfl
  | .item i :: ds => by rw [dumpAll, dump, Spec.leavesAll, Spec.leaves, Spec.dumpAll_eq indent ds]
  | .more v :: ds => by
    rw [dumpAll, Spec.dump_more (indent + 1) v, Spec.leavesAll, Spec.leaves, Spec.dumpAll_eq indent ds]
end

theorem Spec.leavesAll_append (n : Nat) (a b : List CheckFixData) :
    Spec.leavesAll n (a ++ b) = Spec.leavesAll n a ++ Spec.leavesAll n b := by
  induction a with
  | nil => rfl
  | cons d a ih => rw [List.cons_append, Spec.leavesAll, ih, Spec.leavesAll, List.append_assoc]

mutual
theorem Spec.leaves_items (n m : Nat) : ∀ d : CheckFixData,
    (Spec.leaves n d).map Prod.snd = (Spec.leaves m d).map Prod.snd
  | .item _ => rfl
  | .more v => by rw [Spec.leaves, Spec.leaves, Spec.leavesAll_items (n + 1) (m + 1) v]
theorem Spec.leavesAll_items (n m : Nat) : ∀ v : List CheckFixData,
    (Spec.leavesAll n v).map Prod.snd = (Spec.leavesAll m v).map Prod.snd
  | [] => rfl
  | d :: ds => by
    rw [Spec.leavesAll, Spec.leavesAll, List.map_append, List.map_append, Spec.leaves_items n m d,
      Spec.leavesAll_items n m ds]
end

/-- Reporting the findings visits each finding exactly once, left to right, for
every nesting. -/
theorem C54_dump_complete (indent : Nat) (d : CheckFixData) :
    (dump indent d).map Prod.snd = (Spec.leaves 0 d).map Prod.snd := by
  cases d with
  | item i => rfl
  | more v => rw [Spec.dump_more, Spec.leaves, Spec.leavesAll_items indent 1 v]

/-- The indentation of a finding in a list of findings is the starting
indentation plus the depth of its list; a finding on its own is at the starting
indentation. -/
theorem C54_dump_indent (indent : Nat) (i : CheckFixItem) (v : List CheckFixData) :
    dump indent (.item i) = [(indent, i)] ∧
    (dump indent (.more v)).map (fun x => (x.1 + 1, x.2)) = Spec.leaves indent (.more v) := by
  refine ⟨rfl, ?_⟩
  rw [Spec.dump_more, Spec.leaves]
  have key : (∀ d : CheckFixData, ∀ n, (Spec.leaves n d).map (fun x => (x.1 + 1, x.2)) = Spec.leaves (n + 1) d) ∧
      ∀ v : List CheckFixData, ∀ n, (Spec.leavesAll n v).map (fun x => (x.1 + 1, x.2)) = Spec.leavesAll (n + 1) v := by
    have h : ∀ d : CheckFixData, ∀ n,
        (Spec.leaves n d).map (fun x => (x.1 + 1, x.2)) = Spec.leaves (n + 1) d := by
      intro d
      refine CheckFixData.rec
        (motive_1 := fun d => ∀ n, (Spec.leaves n d).map (fun x => (x.1 + 1, x.2)) = Spec.leaves (n + 1) d)
        (motive_2 := fun v => ∀ n, (Spec.leavesAll n v).map (fun x => (x.1 + 1, x.2)) = Spec.leavesAll (n + 1) v)
        ?_ ?_ ?_ ?_ d
      · intro i n; rfl
      · intro v ih n; rw [Spec.leaves, Spec.leaves, ih]
      · intro n; rfl
      · intro d ds ih1 ih2 n
        rw [Spec.leavesAll, Spec.leavesAll, List.map_append, ih1, ih2]
    refine ⟨h, ?_⟩
    intro v
    induction v with
    | nil => intro n; rfl
    | cons d ds ih => intro n; rw [Spec.leavesAll, Spec.leavesAll, List.map_append, h, ih]
  exact key.2 v indent

/-- `flatter` keeps every finding exactly once in order. -/
theorem C54_flatter (n : Nat) (d : CheckFixData) :
    (Spec.leaves n d.flatter).map Prod.snd = (Spec.leaves n d).map Prod.snd := by
  cases d with
  | item i => rfl
  | more v =>
    match v with
    | [] => rfl
    | [x] =>
      show (Spec.leaves n x).map Prod.snd = (Spec.leaves n (.more [x])).map Prod.snd
      rw [Spec.leaves, Spec.leavesAll, Spec.leavesAll, List.append_nil, Spec.leaves_items n (n + 1) x]
    | x :: y :: l => rfl

/-- and gives a list of findings only if there is not exactly one entry. -/
theorem C54_flatter_shape (d : CheckFixData) (v : List CheckFixData) (h : d.flatter = .more v)
    (h1 : v.length = 1) : ∃ x, d = .more [.more [x]] := by
  cases d with
  | item i => cases h
  | more w =>
    match w with
    | [] => cases h; simp at h1
    | [x] =>
      have hx : x = .more v := h
      match v, h1 with
      | [y], _ => exact ⟨y, by rw [hx]⟩
    | x :: y :: l => cases h; simp at h1

example : (dump 0 (.more [.item ⟨1, 7, [], [], false⟩, .more [.more [.item ⟨4, 1, [], [], true⟩]],
    .item ⟨6, 1, [], [], false⟩])).map Prod.fst = [0, 2, 0] := by decide

end Verif

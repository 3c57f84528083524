import Verif.Model.Footprint.Codec
import Verif.Spec.FootprintFile
import Verif.Lemmas.SplitPred
/-!
# C21: layer names
-/

namespace Verif
open Fp

open Spec

theorem Fp.type_show_known (t : LayerType) : (∃ s, t = .other s) ∨ t.show ∈ knownTypes := by
  cases t <;> simp [LayerType.show, knownTypes]

theorem Fp.type_read_show (t : LayerType) (h : ∀ s, t = .other s → s ∉ knownTypes) :
    LayerType.fromString t.show = t := by
  cases t with
  | other s =>
    have := h s rfl
    simp only [knownTypes, List.mem_cons, List.not_mem_nil, or_false, not_or] at this
    obtain ⟨h1, h2, h3, h4, h5, h6, h7, h8, h9, h10⟩ := this
    simp [LayerType.show, LayerType.fromString, h1, h2, h3, h4, h5, h6, h7, h8, h9, h10]
  | _ => rfl

theorem Fp.type_show_read (s : Str) : (LayerType.fromString s).show = s := by
  unfold LayerType.fromString
  repeat' split
  all_goals first | (rename_i h; exact h.symm) | rfl

theorem Fp.side_show_read (s : Str) (l : LayerSide) (h : LayerSide.fromString s = .ok l) :
    l.show = s ++ ['.'] := by
  unfold LayerSide.fromString at h
  repeat' split at h
  all_goals first
    | (rename_i hs; subst hs; simp only [Res.ok.injEq] at h; subst h; rfl)
    | exact absurd h (by simp)

theorem Fp.side_read_err (s : Str) :
    (∃ l, LayerSide.fromString s = .ok l) ∧ s ∈ knownSides ∨
    LayerSide.fromString s = .err .sexp ∧ s ∉ knownSides := by
  by_cases h : s ∈ knownSides
  · left
    refine ⟨?_, h⟩
    simp only [knownSides, List.mem_cons, List.not_mem_nil, or_false] at h
    rcases h with rfl | rfl | rfl | rfl | rfl | rfl | rfl | rfl | rfl | rfl <;> exact ⟨_, rfl⟩
  · right
    refine ⟨?_, h⟩
    simp only [knownSides, List.mem_cons, List.not_mem_nil, or_false, not_or] at h
    obtain ⟨h1, h2, h3, h4, h5, h6, h7, h8, h9, h10⟩ := h
    simp [LayerSide.fromString, h1, h2, h3, h4, h5, h6, h7, h8, h9, h10]

theorem Fp.noDot {s : Str} (h : '.' ∉ s) : ∀ c ∈ s, (c == '.') = false := by
  intro c hc
  simp only [beq_eq_false_iff_ne]
  rintro rfl
  exact h hc

theorem Fp.dot_none {s : Str} (h : ∀ c ∈ s, (c == '.') = false) : '.' ∉ s := by
  intro hc
  exact absurd (h _ hc) (by simp)

/-- A layer that is written reads back as the same layer. -/
theorem C21_write_read (l : Layer) (h : GoodLayer l) : Layer.fromString l.show = .ok l := by
  obtain ⟨side, t⟩ := l
  have ht := Fp.type_read_show t (fun s hs => (h s hs).2)
  have hd : '.' ∉ t.show := by
    cases t with
    | other s => exact (h s rfl).1
    | _ => decide
  have hs := splitPred_none (· == '.') t.show (Fp.noDot hd)
  cases side
  case none =>
    simp only [Layer.fromString, Layer.show, LayerSide.show, List.nil_append, hs, ht]
  all_goals
    rw [Layer.fromString, Layer.show]
    simp only [LayerSide.show, List.cons_append, List.nil_append, splitPred,
      beq_iff_eq, Char.reduceEq, if_false, if_true, hs, beq_self_eq_true, Bool.false_eq_true]
    simp only [ht]
    rfl

example : GoodLayer ⟨.front, .other (str! "Glue")⟩ := by
  intro s hs
  simp only [LayerType.other.injEq] at hs
  subst hs
  decide

/-- A layer name with at most one dot is written back exactly as it was read. -/
theorem C21_read_write (s : Str) (l : Layer) (hd : dots s ≤ 1) (h : Layer.fromString s = .ok l) :
    l.show = s := by
  rcases splitPred_cases (· == '.') s with h1 | ⟨a, c, b, rfl, hc, ha⟩
  · rw [Layer.fromString, splitPred_none _ _ h1] at h
    simp only [Res.ok.injEq] at h
    subst h
    exact Fp.type_show_read s
  · have hc' : c = '.' := by simpa using hc
    subst hc'
    have hb : '.' ∉ b := by
      simp only [dots, List.count_append, List.count_cons_self] at hd
      rw [← List.count_eq_zero]
      omega
    rw [Layer.fromString, splitPred_cons _ _ _ _ ha hc, splitPred_none _ _ (Fp.noDot hb)] at h
    simp only [Res.bind_eq_ok] at h
    obtain ⟨side, h1, h2⟩ := h
    simp only [Res.ok.injEq] at h2
    subst h2
    simp [Layer.show, Fp.side_show_read _ _ h1, Fp.type_show_read]

example : dots (str! "F.Cu") ≤ 1 ∧ Layer.fromString (str! "F.Cu") = .ok ⟨.front, .cu⟩ := by decide

/-- Which names are accepted: all except those with exactly one dot and an
unknown side.  Reading a name never panics. -/
theorem C21_read_accepts (s : Str) :
    (∃ l, Layer.fromString s = .ok l) ∧ (dots s = 1 → s.takeWhile (· ≠ '.') ∈ knownSides) ∨
    Layer.fromString s = .err .sexp ∧ dots s = 1 ∧ s.takeWhile (· ≠ '.') ∉ knownSides := by
  rcases splitPred_cases (· == '.') s with h1 | ⟨a, c, b, rfl, hc, ha⟩
  · left
    refine ⟨⟨_, by rw [Layer.fromString, splitPred_none _ _ h1]⟩, ?_⟩
    intro h
    have := Fp.dot_none h1
    rw [← List.count_eq_zero] at this
    simp [dots, this] at h
  · have hc' : c = '.' := by simpa using hc
    subst hc'
    have hd0 : dots (a ++ '.' :: b) = dots b + 1 := by
      simp [dots, List.count_eq_zero.2 (Fp.dot_none ha)]
    have ht : (a ++ '.' :: b).takeWhile (· ≠ '.') = a := by
      rw [List.takeWhile_append_of_pos]
      · simp
      · intro x hx; simpa using ha x hx
    rw [ht, hd0]
    rcases splitPred_cases (· == '.') b with h2 | ⟨a2, c2, b2, rfl, hc2, ha2⟩
    · have hb : dots b = 0 := List.count_eq_zero.2 (Fp.dot_none h2)
      rcases Fp.side_read_err a with ⟨⟨l, h3⟩, h4⟩ | ⟨h3, h4⟩
      · left
        refine ⟨⟨⟨l, LayerType.fromString b⟩, ?_⟩, fun _ => h4⟩
        rw [Layer.fromString, splitPred_cons _ _ _ _ ha hc, splitPred_none _ _ h2]
        simp [h3]
      · right
        refine ⟨?_, by omega, h4⟩
        rw [Layer.fromString, splitPred_cons _ _ _ _ ha hc, splitPred_none _ _ h2]
        simp [h3]
    · left
      have hc2' : c2 = '.' := by simpa using hc2
      subst hc2'
      refine ⟨⟨⟨.none, LayerType.fromString a⟩, ?_⟩, ?_⟩
      · rw [Layer.fromString, splitPred_cons _ _ _ _ ha hc, splitPred_cons _ _ _ _ ha2 hc2]
        rcases hx : splitPred (· == '.') b2 with _ | ⟨w, ws⟩
        · exact absurd hx (splitPred_ne_nil _ _)
        · rfl
      · intro h
        simp [dots] at h

/-- A name with two or more dots loses everything from the first dot on. -/
theorem C21_two_dots_lose (s : Str) (h : 2 ≤ dots s) :
    ∃ l, Layer.fromString s = .ok l ∧ l.show = s.takeWhile (· ≠ '.') ∧ l.show ≠ s := by
  rcases splitPred_cases (· == '.') s with h1 | ⟨a, c, b, rfl, hc, ha⟩
  · have := List.count_eq_zero.2 (Fp.dot_none h1)
    simp [dots, this] at h
  · have hc' : c = '.' := by simpa using hc
    subst hc'
    have ht : (a ++ '.' :: b).takeWhile (· ≠ '.') = a := by
      rw [List.takeWhile_append_of_pos]
      · simp
      · intro x hx; simpa using ha x hx
    rcases splitPred_cases (· == '.') b with h2 | ⟨a2, c2, b2, rfl, hc2, ha2⟩
    · have hb : dots b = 0 := List.count_eq_zero.2 (Fp.dot_none h2)
      have hd0 : dots (a ++ '.' :: b) = dots b + 1 := by
        simp [dots, List.count_eq_zero.2 (Fp.dot_none ha)]
      omega
    · refine ⟨⟨.none, LayerType.fromString a⟩, ?_, ?_, ?_⟩
      · rw [Layer.fromString, splitPred_cons _ _ _ _ ha hc, splitPred_cons _ _ _ _ ha2 hc2]
        rcases hx : splitPred (· == '.') b2 with _ | ⟨w, ws⟩
        · exact absurd hx (splitPred_ne_nil _ _)
        · rfl
      · rw [ht]; exact Fp.type_show_read a
      · have : (Layer.mk .none (LayerType.fromString a)).show = a := Fp.type_show_read a
        rw [this]
        intro hh
        have := congrArg List.length hh
        simp at this

example : 2 ≤ dots (str! "F.Cu.old") := by decide

end Verif

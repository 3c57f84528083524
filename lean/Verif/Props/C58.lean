import Verif.Lemmas.Calm
import Verif.Lemmas.Kinds
import Verif.Basic.Nm
/-!
# C58: reading a footprint, layout, library table or project never panics
-/

namespace Verif
open Res

variable {F : Type} [Flt F]

/-- `footprint::parse`, `layout::parse`, `fp_lib_table::parse` and `project::parse_str`
return a value or an error for every text. -/
theorem C58_always_returns (t : Str) :
    ((∃ m, (Fp.parse t : Res (Fp.Module F)) = .ok m) ∨ ∃ e, (Fp.parse t : Res (Fp.Module F)) = .err e) ∧
    ((∃ l, (Lay.parse t : Res (Lay.Layout F)) = .ok l) ∨ ∃ e, (Lay.parse t : Res (Lay.Layout F)) = .err e) ∧
    ((∃ x, Tbl.parse t = .ok x) ∨ ∃ e, Tbl.parse t = .err e) ∧
    ((∃ x, Pro.parseStr t = .ok x) ∨ ∃ e, Pro.parseStr t = .err e) := by
  have gen : ∀ {α : Type} (x : Res α), x.Calm → (∃ a, x = .ok a) ∨ ∃ e, x = .err e := by
    intro α x h
    cases x with
    | ok a => exact Or.inl ⟨a, rfl⟩
    | err e => exact Or.inr ⟨e, rfl⟩
    | panic => exact absurd rfl h.1
    | diverge => exact absurd rfl h.2
  refine ⟨gen _ (Fp.parse_calm t), gen _ (Lay.parse_calm t), gen _ (Tbl.parse_calm t), gen _ ?_⟩
  unfold Pro.parseStr
  exact calm_ite (calm_err _) (calm_ok _)

example : (Fp.parse (str! "(module M (tedit -1))") : Res (Fp.Module Nm)).Calm := Fp.parse_calm _

/-- A footprint, layout or library table text must start, after white space, with an
opening parenthesis; anything else is rejected. -/
theorem C58_rejects_no_paren (t : Str) (h : ∀ w r, Spec.Blank w → t ≠ w ++ '(' :: r) :
    (∃ e, (Fp.parse t : Res (Fp.Module F)) = .err e) ∧ (∃ e, (Lay.parse t : Res (Lay.Layout F)) = .err e) ∧
    ∃ e, Tbl.parse t = .err e := by
  have key : ∀ k, ¬ (∃ n, Files.mark k = .tree n) ∨ ∃ e, Spec.RejectsWith F [] t e k := by
    intro k
    by_cases hk : ∃ n, Files.mark k = .tree n
    · right
      obtain ⟨n, hn⟩ := hk
      by_cases hr : ∃ e, Spec.RejectsWith F [] t e k
      · exact hr
      · have := Files.live_mark [] t k hr
        rw [hn] at this
        obtain ⟨l, hl⟩ := this
        obtain ⟨w, r, hw, rfl⟩ := Files.starts_paren t _ hl
        exact absurd rfl (h w r hw)
    · exact Or.inl hk
  refine ⟨(key .module_).resolve_left (by simp [Files.mark]), (key .layout).resolve_left (by simp [Files.mark]),
    (key .fpLibTable).resolve_left (by simp [Files.mark])⟩

end Verif

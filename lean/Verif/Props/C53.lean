import Verif.Model.Project
/-!
# C53: project files are kept verbatim
-/

namespace Verif
open Pro

/-- A text is accepted as a project exactly if it starts with `update=`; then the
project holds the complete text.  Otherwise the result is an error (never a
panic). -/
theorem C53_verbatim (s : Str) :
    ((∃ r, s = str! "update=" ++ r) → parseStr s = .ok ⟨s⟩) ∧
    ((¬ ∃ r, s = str! "update=" ++ r) → parseStr s = .err .other) := by
  have key : startsWith s (str! "update=") = true ↔ ∃ r, s = str! "update=" ++ r := by
    unfold startsWith
    rw [List.isPrefixOf_iff_prefix]
    constructor
    · rintro ⟨r, rfl⟩; exact ⟨r, rfl⟩
    · rintro ⟨r, rfl⟩; exact ⟨r, rfl⟩
  constructor
  · intro h
    simp [parseStr, key.2 h]
  · intro h
    have : startsWith s (str! "update=") = false := by
      rw [← Bool.not_eq_true, key]; exact h
    simp [parseStr, this]

/-- Different project files are different projects. -/
theorem C53_injective (s t : Str) (p : Project) (h1 : parseStr s = .ok p) (h2 : parseStr t = .ok p) :
    s = t := by
  unfold parseStr at h1 h2
  split at h1
  · cases h1
  · split at h2
    · cases h2
    · rw [Res.ok.injEq] at h1 h2
      rw [← h2] at h1
      exact congrArg Project.data h1

example : parseStr (str! "update=x\nversion=1\n") = .ok ⟨str! "update=x\nversion=1\n"⟩ :=
  (C53_verbatim _).1 ⟨_, rfl⟩

end Verif

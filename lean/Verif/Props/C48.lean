import Verif.Props.C47
/-!
# C48: asking for a specific kind reports that parser's error
-/

namespace Verif
open Files Spec Res

variable {F : Type} [Flt F]

/-- The errors of `read_kicad_file`, for every file system, file name and expectation:
the file cannot be read, or the parser of the expected kind rejects the text with this
very error and all parsers tried before it reject the text as well.  (With
`Expected::Any` only the first is possible.) -/
theorem C48_error (d : Disk) (name : Str) (e : Expected) (x : Err) :
    (readKicadFile d name e : Res (KicadFile F)) = .err x ↔
      (d.read name = none ∧ x = .io) ∨
      ∃ text w, d.read name = some text ∧ wanted e = some w ∧ RejectsWith F name text x w ∧
        ∀ k, k.place < w.place → ∃ y, RejectsWith F name text y k := by
  unfold readKicadFile readFile
  cases hd : d.read name with
  | none =>
    simp only [bind_err, err.injEq, true_and, reduceCtorEq, false_and, exists_false, or_false]
    exact eq_comm
  | some s =>
    simp only [bind_ok, reduceCtorEq, false_and, false_or, Option.some.injEq, exists_and_left, exists_eq_left']
    rcases one_live (F := F) name s with hn | ⟨k, hk, ho⟩
    · rcases recognise_none name s e hn with ⟨hw, hr⟩ | ⟨k, y, hw, hx, hr⟩
      · rw [hr, hw]; simp
      · rw [hr, hw]
        simp only [Option.some.injEq, exists_eq_left', err.injEq]
        constructor
        · rintro rfl; exact ⟨hx, fun k _ => hn k⟩
        · rintro ⟨h, -⟩
          cases k <;> (simp only [RejectsWith] at h hx; rw [hx] at h; cases h; rfl)
    · rcases recognise_one name s e k hk ho with ⟨hw, hr⟩ | ⟨w, y, hw, hlt, hx, hr⟩
      · rw [hr]
        have hl : ∀ x, attempt F name s k ≠ .err x := by
          intro x h
          have gen : ∀ {α : Type} (r : Res α) (f : α → KicadFile F), (f <$> r) = .err x → r = .err x := by
            intro α r f h
            cases r <;> first | (cases h; done) | (cases h; rfl)
          refine hk ⟨x, ?_⟩
          cases k <;> exact gen _ _ h
        constructor
        · intro h; exact absurd h (hl x)
        · rintro ⟨w, h1, h2, h3⟩
          have hle := hw w h1
          by_cases hkw : k.place < w.place
          · exact absurd (h3 k hkw) hk
          · have : k = w := by
              have : k.place = w.place := by omega
              revert this; cases k <;> cases w <;> decide
            subst this
            exact absurd ⟨x, h2⟩ hk
      · rw [hr, hw]
        simp only [Option.some.injEq, exists_eq_left', err.injEq]
        constructor
        · rintro rfl
          refine ⟨hx, fun k' hk' => ho k' ?_⟩
          rintro rfl; omega
        · rintro ⟨h, -⟩
          cases w <;> (simp only [RejectsWith] at h hx; rw [hx] at h; cases h; rfl)

example : (readKicadFile ⟨fun _ => some (str! "hello")⟩ (str! "f") .schematic : Res (KicadFile Nm)) =
    .err .other := by rfl
example : (readKicadFile ⟨fun _ => some (str! "hello")⟩ (str! "f") .layout : Res (KicadFile Nm)) =
    .err .sexp := by rfl

/-- When `read_kicad_file` panics: exactly when the text has the schematic or symbol
library header, that parser panics on it, and no earlier kind was expected. -/
theorem C48_panic (d : Disk) (name : Str) (e : Expected) :
    (readKicadFile d name e : Res (KicadFile F)) = .panic ↔
      ∃ text k, d.read name = some text ∧ (k = .schematic ∨ k = .symbolLib) ∧ Panics F name text k ∧
        ∀ w, wanted e = some w → k.place ≤ w.place := by
  unfold readKicadFile readFile
  cases hd : d.read name with
  | none => simp
  | some s =>
    simp only [bind_ok, Option.some.injEq, exists_and_left, exists_eq_left']
    rcases one_live (F := F) name s with hn | ⟨k, hk, ho⟩
    · have : (recognise name s e : Res (KicadFile F)) ≠ .panic := by
        rcases recognise_none name s e hn with ⟨-, hr⟩ | ⟨_, _, _, _, hr⟩ <;> rw [hr] <;> simp
      constructor
      · intro h; exact absurd h this
      · rintro ⟨k, -, hp, -⟩
        exact absurd (hn k) (panics_live name s k hp)
    · rcases recognise_one name s e k hk ho with ⟨hw, hr⟩ | ⟨w, y, hw, hlt, hx, hr⟩
      · rw [hr]
        have gen : ∀ {α : Type} (r : Res α) (f : α → KicadFile F), (f <$> r) = .panic ↔ r = .panic := by
          intro α r f
          cases r <;> exact ⟨fun h => by cases h <;> rfl, fun h => by cases h <;> rfl⟩
        have hp : attempt F name s k = .panic ↔ Panics F name s k := by
          cases k <;> exact gen _ _
        rw [hp]
        constructor
        · intro h; exact ⟨k, panics_only name s k h, h, hw⟩
        · rintro ⟨k', -, hp', -⟩
          rw [live_unique name s k k' hk (panics_live name s k' hp')]
          exact hp'
      · rw [hr]
        constructor
        · intro h; cases h
        · rintro ⟨k', -, hp', hle⟩
          have := live_unique name s k k' hk (panics_live name s k' hp')
          subst this
          have := hle w hw
          omega

/-- `read_kicad_file` always ends. -/
theorem C48_ends (d : Disk) (name : Str) (e : Expected) :
    (readKicadFile d name e : Res (KicadFile F)) ≠ .diverge := by
  unfold readKicadFile readFile
  cases hd : d.read name with
  | none => simp
  | some s =>
    simp only [bind_ok]
    rcases one_live (F := F) name s with hn | ⟨k, hk, ho⟩
    · rcases recognise_none name s e hn with ⟨-, hr⟩ | ⟨_, _, _, _, hr⟩ <;> rw [hr] <;> simp
    · rcases recognise_one name s e k hk ho with ⟨hw, hr⟩ | ⟨w, y, hw, hlt, hx, hr⟩
      · rw [hr]
        rcases kinds_end name s k hk with h | h
        · cases k <;> (obtain ⟨v, hv⟩ := h; rw [attempt, hv]; intro h; cases h)
        · cases k <;> (simp only [Panics] at h; rw [attempt, h]; intro h; cases h)
      · rw [hr]; simp

/-- The errors of the typed readers: the file cannot be read; or its parser rejects the
text with this error and so do the parsers tried before it with theirs; or a kind tried
earlier accepts the text, and then the reader reports a mismatch of kinds. -/
theorem C48_typed_errors (d : Disk) (name : Str) (x : Err) :
    let fails (w : FileKind) : Prop :=
      (d.read name = none ∧ x = .io) ∨
      ∃ text, d.read name = some text ∧
        ((RejectsWith F name text x w ∧ ∀ k, k.place < w.place → ∃ y, RejectsWith F name text y k) ∨
         (x = .other ∧ ∃ k, k.place < w.place ∧ Accepts F name text k))
    ((readModule d name : Res (Fp.Module F)) = .err x ↔ fails .module_) ∧
    ((readSchematic d name : Res (Sch.Schematic F)) = .err x ↔ fails .schematic) ∧
    ((readLayout d name : Res (Lay.Layout F)) = .err x ↔ fails .layout) ∧
    ((readSymbolLib d name : Res (Lib.SymbolLib F)) = .err x ↔ fails .symbolLib) ∧
    (readProject F d name = .err x ↔ fails .project) ∧
    (readFpLibTable F d name = .err x ↔ fails .fpLibTable) := by
  intro fails
  have gen : ∀ {α : Type} (get : KicadFile F → Res α) (e : Expected) (w : FileKind)
      (_ : ∀ g, (get g = .err x ↔ x = .other ∧ kindOf g ≠ some w)) (_ : wanted e = some w),
      (readKicadFile d name e >>= get) = .err x ↔ fails w := by
    intro α get e w hg hw
    have hb : ∀ r : Res (KicadFile F), (r >>= get) = .err x ↔ r = .err x ∨ ∃ f, r = .ok f ∧ get f = .err x := by
      intro r
      cases r <;> simp
    rw [hb]
    constructor
    · rintro (h | ⟨f, hf, hx⟩)
      · rcases (C48_error d name e x).1 h with h | ⟨t, w', ht, hw', hr, hk⟩
        · exact Or.inl h
        · rw [hw] at hw'
          cases hw'
          exact Or.inr ⟨t, ht, Or.inl ⟨hr, hk⟩⟩
      · obtain ⟨hxo, hkind⟩ := (hg f).1 hx
        obtain ⟨t, ht, hc, hp⟩ := (C47_recognised d name e f).1 hf
        obtain ⟨k, hk, hle⟩ := hp w hw
        refine Or.inr ⟨t, ht, Or.inr ⟨hxo, k, ?_, ?_⟩⟩
        · have : k ≠ w := by rintro rfl; exact hkind hk
          have hne : k.place ≠ w.place := by
            intro h; apply this; revert h; cases k <;> cases w <;> decide
          omega
        · cases f <;> cases hk <;> exact ⟨_, hc⟩
    · rintro (⟨h, rfl⟩ | ⟨t, ht, ⟨hr, hk⟩ | ⟨rfl, k, hlt, ha⟩⟩)
      · exact Or.inl ((C48_error d name e .io).2 (Or.inl ⟨h, rfl⟩))
      · exact Or.inl ((C48_error d name e x).2 (Or.inr ⟨t, w, ht, hw, hr, hk⟩))
      · right
        have hne : k ≠ w := by rintro rfl; omega
        obtain ⟨f, hf, hc⟩ : ∃ f : KicadFile F, kindOf f = some k ∧ IsContent name t f := by
          cases k <;> obtain ⟨v, hv⟩ := ha
          · exact ⟨.module_ v, rfl, hv⟩
          · exact ⟨.schematic v, rfl, hv⟩
          · exact ⟨.layout v, rfl, hv⟩
          · exact ⟨.symbolLib v, rfl, hv⟩
          · exact ⟨.project v, rfl, hv⟩
          · exact ⟨.fpLibTable v, rfl, hv⟩
        refine ⟨f, (C47_recognised d name e f).2 ⟨t, ht, hc, ?_⟩, (hg f).2 ⟨rfl, ?_⟩⟩
        · intro w' h
          rw [hw] at h
          cases h
          exact ⟨k, hf, by omega⟩
        · rw [hf]
          intro h; cases h; exact hne rfl
  refine ⟨?_, ?_, ?_, ?_, ?_, ?_⟩
  · exact gen _ .module_ .module_ (by intro g; cases g <;> simp [kindOf, eq_comm]) rfl
  · exact gen _ .schematic .schematic (by intro g; cases g <;> simp [kindOf, eq_comm]) rfl
  · exact gen _ .layout .layout (by intro g; cases g <;> simp [kindOf, eq_comm]) rfl
  · exact gen _ .symbolLib .symbolLib (by intro g; cases g <;> simp [kindOf, eq_comm]) rfl
  · exact gen _ .project .project (by intro g; cases g <;> simp [kindOf, eq_comm]) rfl
  · exact gen _ .fpLibTable .fpLibTable (by intro g; cases g <;> simp [kindOf, eq_comm]) rfl

example : (readLayout ⟨fun _ => some (str! "(module M)")⟩ (str! "f") : Res (Lay.Layout Nm)) =
    .err .other := by rfl

end Verif

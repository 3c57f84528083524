import Verif.Lemmas.Kinds
import Verif.Basic.Nm
/-!
# C47: a file is recognised as the kind it is
-/

namespace Verif
open Files Spec Res

variable {F : Type} [Flt F]

/-- No text is accepted by two of the six parsers, whatever the file name. -/
theorem C47_one_kind (name name' text : Str) (k k' : FileKind) (h : Accepts F name text k)
    (h' : Accepts F name' text k') : k = k' := by
  have m := live_mark name text k (accepts_live name text k h)
  have m' := live_mark name' text k' (accepts_live name' text k' h')
  exact mark_inj k k' (hasMark_unique text _ _ m m')

example : Accepts Nm (str! "f") (str! "(module M)") .module_ := ⟨⟨str! "M", []⟩, by rfl⟩
example : Accepts Nm (str! "f") (str! "(fp_lib_table)") .fpLibTable := ⟨⟨[]⟩, by rfl⟩
example : Accepts Nm (str! "f") (str! "update=now") .project := ⟨⟨str! "update=now"⟩, by rfl⟩

theorem Files.attempt_ok (name s : Str) (k : FileKind) (f : KicadFile F) :
    attempt F name s k = .ok f ↔ kindOf f = some k ∧ IsContent name s f := by
  have gen : ∀ {α : Type} (x : Res α) (w : α → KicadFile F), (w <$> x) = .ok f ↔ ∃ a, f = w a ∧ x = .ok a := by
    intro α x w
    constructor
    · intro h
      cases x with
      | ok a => cases h; exact ⟨a, rfl, rfl⟩
      | err e => cases h
      | panic => cases h
      | diverge => cases h
    · rintro ⟨b, rfl, rfl⟩
      rfl
  cases k <;> rw [attempt, gen] <;> constructor
  all_goals first
    | (rintro ⟨a, rfl, h⟩; exact ⟨rfl, h⟩)
    | (rintro ⟨h1, h2⟩; cases f <;> first | (cases h1; done) | exact ⟨_, rfl, h2⟩)

theorem Files.content_live (name s : Str) (f : KicadFile F) (k : FileKind) (hk : kindOf f = some k)
    (h : IsContent name s f) : Live F name s k := by
  refine accepts_live name s k ?_
  cases f <;> cases hk <;> exact ⟨_, h⟩

/-- Which file value `read_kicad_file` returns, for every file system, file name and
expectation: exactly what the (only) parser that accepts the text reads from it, or
`Unknown` with the name if all six parsers reject it; if a kind is expected, only kinds
up to that one in the order of the attempts are returned. -/
theorem C47_recognised (d : Disk) (name : Str) (e : Expected) (f : KicadFile F) :
    readKicadFile d name e = .ok f ↔
      ∃ text, d.read name = some text ∧ IsContent name text f ∧
        ∀ w, wanted e = some w → ∃ k, kindOf f = some k ∧ k.place ≤ w.place := by
  unfold readKicadFile readFile
  cases hd : d.read name with
  | none => simp
  | some s =>
    simp only [bind_ok, Option.some.injEq, exists_eq_left']
    rcases one_live (F := F) name s with hn | ⟨k, hk, ho⟩
    · have hlive : ∀ g : KicadFile F, IsContent name s g → kindOf g = none := by
        intro g hg
        cases hk : kindOf g with
        | none => rfl
        | some k => exact absurd (hn k) (content_live name s g k hk hg)
      rcases recognise_none name s e hn with ⟨hw, hr⟩ | ⟨k, x, hw, hx, hr⟩
      · rw [hr]
        constructor
        · intro h
          cases h
          exact ⟨⟨rfl, hn⟩, by rw [hw]; simp⟩
        · rintro ⟨hc, -⟩
          have := hlive f hc
          cases f <;> first | (cases this; done) | skip
          obtain ⟨rfl, -⟩ := hc
          rfl
      · rw [hr]
        constructor
        · intro h; cases h
        · rintro ⟨hc, hf⟩
          obtain ⟨k', hk', -⟩ := hf k hw
          rw [hlive f hc] at hk'
          cases hk'
    · have hkind : ∀ g : KicadFile F, IsContent name s g → kindOf g = some k := by
        intro g hg
        cases hkg : kindOf g with
        | none =>
          cases g <;> first | (cases hkg; done) | exact absurd (hg.2 k) hk
        | some k' => rw [live_unique name s k' k (content_live name s g k' hkg hg) hk]
      rcases recognise_one name s e k hk ho with ⟨hw, hr⟩ | ⟨w, x, hw, hlt, hx, hr⟩
      · rw [hr, attempt_ok]
        constructor
        · rintro ⟨h1, h2⟩
          exact ⟨h2, fun w h => ⟨k, h1, hw w h⟩⟩
        · rintro ⟨h1, h2⟩
          exact ⟨hkind f h1, h1⟩
      · rw [hr]
        constructor
        · intro h; cases h
        · rintro ⟨hc, hf⟩
          obtain ⟨k', hk', hle⟩ := hf w hw
          rw [hkind f hc] at hk'
          cases hk'
          omega

example : (readKicadFile ⟨fun _ => some (str! "(module M)")⟩ (str! "f") .any : Res (KicadFile Nm)) =
    .ok (.module_ ⟨str! "M", []⟩) := by rfl
example : (readKicadFile ⟨fun _ => some (str! "hello")⟩ (str! "f") .any : Res (KicadFile Nm)) =
    .ok (.unknown (str! "f")) := by rfl

/-- Each typed reader succeeds exactly when the file exists and the parser of that kind
accepts its text, and returns the value of that parser. -/
theorem C47_typed_readers (d : Disk) (name : Str) :
    (∀ m : Fp.Module F, readModule d name = .ok m ↔ ∃ t, d.read name = some t ∧ Fp.parse t = .ok m) ∧
    (∀ s : Sch.Schematic F, readSchematic d name = .ok s ↔
      ∃ t, d.read name = some t ∧ Sch.parse (some name) t = .ok s) ∧
    (∀ l : Lay.Layout F, readLayout d name = .ok l ↔ ∃ t, d.read name = some t ∧ Lay.parse t = .ok l) ∧
    (∀ l : Lib.SymbolLib F, readSymbolLib d name = .ok l ↔
      ∃ t, d.read name = some t ∧ Lib.parseStr t = .ok l) ∧
    (∀ p, readProject F d name = .ok p ↔ ∃ t, d.read name = some t ∧ Pro.parseStr t = .ok p) ∧
    (∀ t, readFpLibTable F d name = .ok t ↔ ∃ x, d.read name = some x ∧ Tbl.parse x = .ok t) := by
  have gen : ∀ {α : Type} (wrap : α → KicadFile F) (get : KicadFile F → Res α) (e : Expected) (a : α) (k : FileKind)
      (_ : ∀ g, get g = .ok a ↔ g = wrap a) (_ : wanted e = some k) (_ : kindOf (wrap a) = some k),
      (readKicadFile d name e >>= get) = .ok a ↔
        ∃ t, d.read name = some t ∧ IsContent name t (wrap a) := by
    intro α wrap get e a k hg hw hk
    rw [bind_eq_ok]
    constructor
    · rintro ⟨f, hf, ha⟩
      rw [(hg f).1 ha] at hf
      obtain ⟨t, ht, hc, -⟩ := (C47_recognised d name e _).1 hf
      exact ⟨t, ht, hc⟩
    · rintro ⟨t, ht, hc⟩
      refine ⟨wrap a, (C47_recognised d name e _).2 ⟨t, ht, hc, ?_⟩, (hg _).2 rfl⟩
      intro w h
      rw [hw] at h
      cases h
      exact ⟨k, hk, Nat.le_refl _⟩
  refine ⟨fun m => ?_, fun m => ?_, fun m => ?_, fun m => ?_, fun m => ?_, fun m => ?_⟩
  · exact gen .module_ _ .module_ m .module_ (by intro g; cases g <;> simp) rfl rfl
  · exact gen .schematic _ .schematic m .schematic (by intro g; cases g <;> simp) rfl rfl
  · exact gen .layout _ .layout m .layout (by intro g; cases g <;> simp) rfl rfl
  · exact gen .symbolLib _ .symbolLib m .symbolLib (by intro g; cases g <;> simp) rfl rfl
  · exact gen .project _ .project m .project (by intro g; cases g <;> simp) rfl rfl
  · exact gen .fpLibTable _ .fpLibTable m .fpLibTable (by intro g; cases g <;> simp) rfl rfl

end Verif

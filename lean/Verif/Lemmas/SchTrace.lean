import Verif.Lemmas.SchMsg
import Verif.Lemmas.SchSheetGrammar
/-!
# Messages of the schematic reader and the first line at fault
-/

set_option linter.unusedSectionVars false

namespace Verif.Sch.Msg
open Verif Spec Said

variable {F : Type} [Flt F] {α β : Type}

/-- After the lines `b` the reader can still succeed, whatever follows its item. -/
def Via (f : List Str → Said (α × List Str)) (b : List Str) : Prop :=
  ∃ r, (∀ l ∈ r, '\n' ∉ l) ∧ ∀ z, ∃ x p', f (b ++ r ++ z) = .ok (x, p') ∧ next p' = z

/-- If the reader fails then at the first line after which it must fail, and with a message about this line. -/
def Tr (F : Type) [Flt F] (f : List Str → Said (α × List Str)) : Prop :=
  ∀ p m, f p = .err m → ∃ b l a, p = b ++ l :: a ∧ Blames F l m ∧ (∀ a', f (b ++ l :: a') = .err m) ∧ Via f b

/-- Read a line, then go on with the next. -/
def step (g : Str → Said α) (k : α → List Str → Said (β × List Str)) (p : List Str) : Said (β × List Str) :=
  here p >>= fun s => g s >>= fun a => k a (next p)

/-- Read the last line. -/
def last (g : Str → Said β) (p : List Str) : Said (β × List Str) :=
  here p >>= fun s => g s >>= fun a => .ok (a, p)

theorem via_step {g : Str → Said α} {k : α → List Str → Said (β × List Str)} (s : Str) {a : α} (h : g s = .ok a)
    (hk : Via (k a) []) (hs : '\n' ∉ s := by decide) : Via (step g k) [] := by
  obtain ⟨r, h0, hr⟩ := hk
  refine ⟨s :: r, List.forall_mem_cons.2 ⟨hs, h0⟩, fun z => ?_⟩
  obtain ⟨x, p', h1, h2⟩ := hr z
  refine ⟨x, p', ?_, h2⟩
  show (g s >>= fun a => k a (r ++ z)) = _
  rw [h]
  exact h1

theorem via_last {g : Str → Said β} (s : Str) {a : β} (h : g s = .ok a) (hs : '\n' ∉ s := by decide) :
    Via (last g) [] := by
  refine ⟨[s], by simpa using hs, fun z => ⟨a, s :: z, ?_, rfl⟩⟩
  show (g s >>= fun a => Said.ok (a, s :: z)) = _
  rw [h]; rfl

theorem tr_step {g : Str → Said α} {k : α → List Str → Said (β × List Str)} (hg : ∀ s, Bl F s (g s))
    (hv : Via (step g k) []) (hk : ∀ a, Tr F (k a)) : Tr F (step g k) := by
  intro p m h
  cases p with
  | nil => cases h
  | cons s rest =>
    have he : ∀ rest, step g k (s :: rest) = g s >>= fun a => k a rest := fun _ => rfl
    rw [he] at h
    rcases bind_eq_err.1 h with h | ⟨a, ha, h⟩
    · exact ⟨[], s, rest, rfl, hg s m h, fun a' => by rw [List.nil_append, he, h]; rfl, hv⟩
    · obtain ⟨b, l, c, rfl, h1, h2, r, hr, h3⟩ := hk a rest m h
      refine ⟨s :: b, l, c, rfl, h1, fun a' => ?_, r, hr, fun z => ?_⟩
      · rw [List.cons_append, he, ha]; exact h2 a'
      · obtain ⟨x, p', h4, h5⟩ := h3 z
        refine ⟨x, p', ?_, h5⟩
        rw [List.cons_append, List.cons_append, he, ha]; exact h4

theorem tr_last {g : Str → Said β} (hg : ∀ s, Bl F s (g s)) (hv : Via (last g) []) : Tr F (last g) := by
  intro p m h
  cases p with
  | nil => cases h
  | cons s rest =>
    have he : ∀ rest, last g (s :: rest) = g s >>= fun a => .ok (a, s :: rest) := fun _ => rfl
    rw [he] at h
    rcases bind_eq_err.1 h with h | ⟨a, ha, h⟩
    · exact ⟨[], s, rest, rfl, hg s m h, fun a' => by rw [List.nil_append, he, h]; rfl, hv⟩
    · cases h

theorem tr_skip {k : List Str → Said (β × List Str)} (hk : Tr F k) (h0 : ∀ m, k [] ≠ .err m) :
    Tr F (fun p => k (next p)) := by
  intro p m h
  cases p with
  | nil => exact absurd h (h0 m)
  | cons s rest =>
    obtain ⟨b, l, c, hp, h1, h2, r, h3⟩ := hk rest m h
    subst hp
    exact ⟨s :: b, l, c, rfl, h1, h2, r, h3⟩

theorem via_skip {k : List Str → Said (β × List Str)} (hk : Via k []) : Via (fun p => k (next p)) [] := by
  obtain ⟨r, h0, h⟩ := hk
  exact ⟨[] :: r, List.forall_mem_cons.2 ⟨by decide, h0⟩, h⟩

/-! ## The items -/

theorem parseDescription_eq : parseDescription =
    step (fun line => splitN 4 line >>= fun v => idx v 1 >>= fun size => idx v 2 >>= fun w => i64R line w >>= fun dimx =>
        idx v 3 >>= fun w => i64R line w >>= fun dimy => .ok (size, dimx, dimy)) fun a p =>
    step (fun line => splitN 3 line >>= fun v => idx v 0 >>= fun w =>
        if w ≠ str! "Sheet" then .err (str! "Expecting 'Sheet'")
        else idx v 1 >>= fun w => i64R line w >>= fun sheet => idx v 2 >>= fun w => i64R line w >>= fun count =>
          .ok (sheet, count)) (fun b =>
    step (wordAndQstring (str! "Title")) fun title =>
    step (wordAndQstring (str! "Date")) fun date =>
    step (wordAndQstring (str! "Rev")) fun rev =>
    step (wordAndQstring (str! "Comp")) fun comp =>
    step (wordAndQstring (str! "Comment1")) fun comment1 =>
    step (wordAndQstring (str! "Comment2")) fun comment2 =>
    step (wordAndQstring (str! "Comment3")) fun comment3 =>
    step (wordAndQstring (str! "Comment4")) fun comment4 =>
    last fun line => assumeString (str! "$EndDescr") line >>= fun _ =>
      .ok { size := a.1, dimx := a.2.1, dimy := a.2.2, title, date, rev, comp, comment1, comment2, comment3, comment4,
            sheet := b.1, sheetCount := b.2 }) (next p) := by
  funext p
  unfold parseDescription step last
  have hite : ∀ {γ δ : Type} (c : Prop) [Decidable c] (x y : Said γ) (f : γ → Said δ),
      ((if c then x else y) >>= f) = if c then x >>= f else y >>= f := by
    intro γ δ c _ x y f; split <;> rfl
  simp only [Said.bind_assoc, bind_ok, bind_err, hite]

theorem tr_description : Tr F parseDescription := by
  rw [parseDescription_eq]
  have v10 : ∀ d : Description, Via (last fun line => assumeString (str! "$EndDescr") line >>= fun _ => .ok d) [] :=
    fun d => via_last (str! "$EndDescr") rfl
  have t10 : ∀ d : Description, Tr F (last fun line => assumeString (str! "$EndDescr") line >>= fun _ => .ok d) := by
    refine fun d => tr_last (fun s => bl_bind ?_ fun _ _ => bl_ok _) (v10 d)
    unfold assumeString
    exact bl_ite (fun h => bl_err (.descr fun e => h e.symm)) (fun _ => bl_ok _)
  have vs : ∀ {name : Str} {k : Str → List Str → Said (Description × List Str)} (l : Str) (x : Str),
      wordAndQstring name l = .ok x → '\n' ∉ l → (∀ a, Via (k a) []) → Via (step (wordAndQstring name) k) [] :=
    fun l x h hn hk => via_step l h (hk _) hn
  have ts : ∀ {name : Str} {k : Str → List Str → Said (Description × List Str)} (l : Str) (x : Str),
      wordAndQstring name l = .ok x → '\n' ∉ l → name ∈ fixedWords → (∀ a, Via (k a) [] ∧ Tr F (k a)) →
      Via (step (wordAndQstring name) k) [] ∧ Tr F (step (wordAndQstring name) k) := fun l x h hn he hk =>
    have hv := vs l x h hn fun a => (hk a).1
    ⟨hv, tr_step (fun _ => bl_entry _ he) hv fun a => (hk a).2⟩
  have hrest : ∀ (a : Str × Int × Int) (b : Int × Int), _ ∧ _ := fun a b =>
    ts (name := str! "Title") (str! "Title x") (str! "x") (by decide) (by decide) (by decide) fun title =>
    ts (name := str! "Date") (str! "Date x") (str! "x") (by decide) (by decide) (by decide) fun date =>
    ts (name := str! "Rev") (str! "Rev x") (str! "x") (by decide) (by decide) (by decide) fun rev =>
    ts (name := str! "Comp") (str! "Comp x") (str! "x") (by decide) (by decide) (by decide) fun comp =>
    ts (name := str! "Comment1") (str! "Comment1 x") (str! "x") (by decide) (by decide) (by decide) fun comment1 =>
    ts (name := str! "Comment2") (str! "Comment2 x") (str! "x") (by decide) (by decide) (by decide) fun comment2 =>
    ts (name := str! "Comment3") (str! "Comment3 x") (str! "x") (by decide) (by decide) (by decide) fun comment3 =>
    ts (name := str! "Comment4") (str! "Comment4 x") (str! "x") (by decide) (by decide) (by decide) fun comment4 =>
    ⟨v10 { size := a.1, dimx := a.2.1, dimy := a.2.2, title, date, rev, comp, comment1, comment2, comment3, comment4,
            sheet := b.1, sheetCount := b.2 }, t10 _⟩
  have hsheet : ∀ a : Str × Int × Int, _ ∧ _ := fun a =>
    have hv := via_step (g := fun line => splitN 3 line >>= fun v => idx v 0 >>= fun w =>
        if w ≠ str! "Sheet" then .err (str! "Expecting 'Sheet'")
        else idx v 1 >>= fun w => i64R line w >>= fun sheet => idx v 2 >>= fun w => i64R line w >>= fun count =>
          .ok (sheet, count)) (str! "Sheet 1 1") (a := (1, 1)) (by decide) (hrest a (1, 1)).1
    And.intro hv (tr_step (F := F) (fun s => bl_split fun v hv => bl_idx hv fun w hw =>
      bl_ite (fun h => bl_err (.sheet hw h)) fun _ => bl_idx hv fun _ hw => bl_bind (bl_i64 hw) fun _ _ =>
        bl_idx hv fun _ hw => bl_bind (bl_i64 hw) fun _ _ => bl_ok _) hv fun b => (hrest a b).2)
  refine tr_step (fun s => bl_split fun v hv => bl_idx hv fun _ _ => bl_idx hv fun _ hw => bl_bind (bl_i64 hw) fun _ _ =>
        bl_idx hv fun _ hw => bl_bind (bl_i64 hw) fun _ _ => bl_ok _)
    (via_step (str! "$Descr A4 1 1") (a := (str! "A4", 1, 1)) (by decide) (via_skip (hsheet _).1))
    fun a => tr_skip (hsheet a).2 (by intro m h; cases h)

theorem parseWire_eq : parseWire =
    step (fun line => if (splitWs line).length ≠ 3 then .err (wrongCount (str! "3") line) else idx (splitWs line) 1) fun w =>
    last fun line => if (splitWs line).length ≠ 4 then .err (wrongCount (str! "4") line) else
      idx (splitWs line) 0 >>= fun w0 => i64R line w0 >>= fun x1 => idx (splitWs line) 1 >>= fun w1 => i64R line w1 >>= fun y1 =>
      idx (splitWs line) 2 >>= fun w2 => i64R line w2 >>= fun x2 => idx (splitWs line) 3 >>= fun w3 => i64R line w3 >>= fun y2 =>
      .ok ⟨if w = str! "Notes" then WireType.notes else if w = str! "Bus" then .bus else .wire, x1, y1, x2, y2⟩ := by
  funext p
  unfold parseWire step last
  have hite : ∀ {γ δ : Type} (c : Prop) [Decidable c] (x y : Said γ) (f : γ → Said δ),
      ((if c then x else y) >>= f) = if c then x >>= f else y >>= f := by
    intro γ δ c _ x y f; split <;> rfl
  simp only [Said.bind_assoc, bind_ok, bind_err, hite]

theorem tr_wire : Tr F parseWire := by
  rw [parseWire_eq]
  have hv : ∀ t : WireType, Via (last fun line => if (splitWs line).length ≠ 4 then .err (wrongCount (str! "4") line) else
      idx (splitWs line) 0 >>= fun w0 => i64R line w0 >>= fun x1 => idx (splitWs line) 1 >>= fun w1 => i64R line w1 >>= fun y1 =>
      idx (splitWs line) 2 >>= fun w2 => i64R line w2 >>= fun x2 => idx (splitWs line) 3 >>= fun w3 => i64R line w3 >>= fun y2 =>
      .ok (⟨t, x1, y1, x2, y2⟩ : Wire)) [] := fun t => via_last (str! "0 0 0 0") (a := ⟨t, 0, 0, 0, 0⟩) (by
        have h : splitWs (str! "0 0 0 0") = [str! "0", str! "0", str! "0", str! "0"] := by decide
        have h0 : ∀ l, i64R l (str! "0") = .ok 0 := fun _ => rfl
        rw [h]; rfl)
  refine tr_step (fun s => ?_) (via_step (str! "Wire Wire Line") (a := str! "Wire") (by decide) (hv _)) fun w =>
    tr_last (fun s => ?_) (hv _)
  · have hs := (splitWs_iff s _).1 rfl
    refine bl_ite (fun h => bl_err ?_) fun _ => ?_
    · rw [wrongCount, showNat_three]; exact .count hs h
    · unfold idx
      split
      · exact bl_ok _
      · exact bl_panic
  · have hs := (splitWs_iff s _).1 rfl
    have hw := words_of s
    refine bl_ite (fun h => bl_err ?_) fun _ => ?_
    · rw [wrongCount, showNat_four]; exact .count hs h
    refine bl_idx hw fun _ hw' => bl_bind (bl_i64 hw') fun _ _ => ?_
    refine bl_idx hw fun _ hw' => bl_bind (bl_i64 hw') fun _ _ => ?_
    refine bl_idx hw fun _ hw' => bl_bind (bl_i64 hw') fun _ _ => ?_
    refine bl_idx hw fun _ hw' => bl_bind (bl_i64 hw') fun _ _ => ?_
    exact bl_ok _

/-- The first line of a text. -/
def textHead (line : Str) : Said Text :=
  if (splitWs line).length < 8 then .err (wrongCount (str! "8 or 9") line) else
    idx (splitWs line) 1 >>= fun w => parseTextType line w >>= fun t => idx (splitWs line) 2 >>= fun w => i64R line w >>= fun x =>
    idx (splitWs line) 3 >>= fun w => i64R line w >>= fun y => idx (splitWs line) 4 >>= fun w => i64R line w >>= fun orientation =>
    idx (splitWs line) 5 >>= fun w => i64R line w >>= fun size =>
    (if t.isLocal then .ok none else idx (splitWs line) 6 >>= fun s => .ok (some s)) >>= fun shape =>
    idx (splitWs line) (if t.isLocal then 6 else 7) >>= fun italicWord =>
    idx (splitWs line) ((if t.isLocal then 6 else 7) + 1) >>= fun w => i64R line w >>= fun thickness =>
    .ok { t, x, y, orientation, size, shape, italic := decide (italicWord = str! "Italic"), thickness, text := [] }

theorem parseText_eq : parseText = step textHead fun t => last fun line => .ok { t with text := line } := by
  funext p
  unfold parseText step last textHead
  have hite : ∀ {γ δ : Type} (c : Prop) [Decidable c] (x y : Said γ) (f : γ → Said δ),
      ((if c then x else y) >>= f) = if c then x >>= f else y >>= f := by
    intro γ δ c _ x y f; split <;> rfl
  simp only [Said.bind_assoc, bind_ok, bind_err, hite]

theorem tr_text : Tr F parseText := by
  rw [parseText_eq]
  have hv : ∀ t : Text, Via (last fun line => .ok { t with text := line }) [] := fun t => via_last [] rfl
  refine tr_step (fun s => ?_) (via_step (str! "Text Notes 0 0 0 50 ~ 0")
    (a := ⟨.note, 0, 0, 0, 50, none, false, 0, []⟩) (by decide) (hv _)) fun w => tr_last (fun s => bl_ok _) (hv _)
  have hs := (splitWs_iff s _).1 rfl
  have hw := words_of s
  unfold textHead
  refine bl_ite (fun h => bl_err (.text hs h)) fun _ => ?_
  refine bl_idx hw fun _ hw' => bl_bind (bl_textType hw') fun _ _ => ?_
  refine bl_idx hw fun _ hw' => bl_bind (bl_i64 hw') fun _ _ => ?_
  refine bl_idx hw fun _ hw' => bl_bind (bl_i64 hw') fun _ _ => ?_
  refine bl_idx hw fun _ hw' => bl_bind (bl_i64 hw') fun _ _ => ?_
  refine bl_idx hw fun _ hw' => bl_bind (bl_i64 hw') fun _ _ => ?_
  refine bl_bind (bl_ite (fun _ => bl_ok _) fun _ => bl_idx hw fun _ _ => bl_ok _) fun _ _ => ?_
  refine bl_idx hw fun _ _ => ?_
  exact bl_idx hw fun _ hw' => bl_bind (bl_i64 hw') fun _ _ => bl_ok _

theorem via_component (d : Component F) : Via (parseComponentLoop d) [] :=
  ⟨[str! "$EndComp"], by decide, fun z => ⟨d, str! "$EndComp" :: z, by rw [parseComponentLoop.eq_def]; rfl, rfl⟩⟩

theorem tr_component : ∀ (n : Nat) (d : Component F) (p : List Str) (m : Str), p.length ≤ n →
    parseComponentLoop d p = .err m → ∃ b l a, p = b ++ l :: a ∧ Blames F l m ∧
      (∀ a', parseComponentLoop d (b ++ l :: a') = .err m) ∧ Via (parseComponentLoop d) b := by
  intro n
  induction n with
  | zero =>
    intro d p m hn h
    cases p with
    | nil => rw [parseComponentLoop.eq_def] at h; cases h
    | cons => simp at hn
  | succ n ih =>
    intro d p m hn h
    cases p with
    | nil => rw [parseComponentLoop.eq_def] at h; cases h
    | cons s rest =>
      have hr : rest.length ≤ n := by simpa using hn
      -- a line that is read by itself
      have one : ∀ g : Said (Component F), Bl F s g →
          (∀ rest, parseComponentLoop d (s :: rest) = g >>= fun d' => parseComponentLoop d' rest) →
          ∃ b l a, s :: rest = b ++ l :: a ∧ Blames F l m ∧
            (∀ a', parseComponentLoop d (b ++ l :: a') = .err m) ∧ Via (parseComponentLoop d) b := by
        intro g hg he
        rw [he] at h
        rcases bind_eq_err.1 h with h | ⟨d', hd, h⟩
        · exact ⟨[], s, rest, rfl, hg m h, fun a' => by rw [List.nil_append, he, h]; rfl, via_component d⟩
        · obtain ⟨b, l, a, rfl, h1, h2, r, hrn, h3⟩ := ih d' rest m hr h
          refine ⟨s :: b, l, a, rfl, h1, fun a' => ?_, r, hrn, fun z => ?_⟩
          · rw [List.cons_append, he, hd]; exact h2 a'
          · obtain ⟨x, p', h4, h5⟩ := h3 z
            exact ⟨x, p', by rw [List.cons_append, List.cons_append, he, hd]; exact h4, h5⟩
      have he := fun rest => parseComponentLoop.eq_def d (s :: rest)
      dsimp only at he
      by_cases h0 : s = str! "$EndComp"
      · rw [he, if_pos h0] at h; cases h
      by_cases h1 : firstWord s = some (str! "L")
      · exact one _ (bl_componentL s d) fun rest => by rw [he, if_neg h0, if_pos h1]
      by_cases h2 : firstWord s = some (str! "U")
      · exact one _ (bl_ok { d with u := s }) fun rest => by rw [he, if_neg h0, if_neg h1, if_pos h2]; rfl
      by_cases h3 : firstWord s = some (str! "P")
      · exact one _ (bl_componentP s d) fun rest => by rw [he, if_neg h0, if_neg h1, if_neg h2, if_pos h3]
      by_cases h4 : firstWord s = some (str! "F")
      · exact one _ (bl_componentF s d) fun rest => by rw [he, if_neg h0, if_neg h1, if_neg h2, if_neg h3, if_pos h4]
      by_cases h5 : firstWord s = some (str! "1") ∨ firstWord s = some (str! "0")
      · have he2 : ∀ s2 rest, parseComponentLoop d (s :: s2 :: rest) =
            parseRotation s2 >>= fun r => parseComponentLoop { d with rotation := r } rest := fun s2 rest => by
          rw [he, if_neg h0, if_neg h1, if_neg h2, if_neg h3, if_neg h4, if_pos h5]
        cases rest with
        | nil => rw [he, if_neg h0, if_neg h1, if_neg h2, if_neg h3, if_neg h4, if_pos h5] at h; cases h
        | cons s2 rest =>
          rw [he2] at h
          rcases bind_eq_err.1 h with h | ⟨r, hd, h⟩
          · refine ⟨[s], s2, rest, rfl, bl_rotation s2 m h, fun a' => ?_, [str! "0 0 0 0", str! "$EndComp"], by decide, fun z => ?_⟩
            · show parseComponentLoop d (s :: s2 :: a') = _
              rw [he2, h]; rfl
            · refine ⟨{ d with rotation := ⟨0, 0, 0, 0⟩ }, str! "$EndComp" :: z, ?_, rfl⟩
              show parseComponentLoop d (s :: str! "0 0 0 0" :: str! "$EndComp" :: z) = _
              rw [he2, show parseRotation (str! "0 0 0 0") = .ok ⟨0, 0, 0, 0⟩ by decide, bind_ok, parseComponentLoop.eq_def]
              rfl
          · obtain ⟨b, l, a, rfl, k1, k2, r', hrn, k3⟩ := ih _ rest m (by simp at hr; omega) h
            refine ⟨s :: s2 :: b, l, a, rfl, k1, fun a' => ?_, r', hrn, fun z => ?_⟩
            · rw [List.cons_append, List.cons_append, he2, hd]; exact k2 a'
            · obtain ⟨x, p', k4, k5⟩ := k3 z
              exact ⟨x, p', by rw [List.cons_append, List.cons_append, List.cons_append, List.cons_append, he2, hd]; exact k4, k5⟩
      by_cases h6 : firstWord s = some (str! "AR")
      · exact one _ (bl_ok { d with arPath := d.arPath ++ [s] }) fun rest => by
          rw [he, if_neg h0, if_neg h1, if_neg h2, if_neg h3, if_neg h4, if_neg h5, if_pos h6]; rfl
      · exact one _ (bl_ok d) fun rest => by
          rw [he, if_neg h0, if_neg h1, if_neg h2, if_neg h3, if_neg h4, if_neg h5, if_neg h6]; rfl

theorem via_sheet (d : Sheet) : Via (parseSheetLoop d) [] :=
  ⟨[str! "$EndSheet"], by decide, fun z => ⟨d, str! "$EndSheet" :: z, by rw [parseSheetLoop.eq_def]; rfl, rfl⟩⟩

theorem tr_sheet (p : List Str) : ∀ (d : Sheet) (m : Str),
    parseSheetLoop d p = .err m → ∃ b l a, p = b ++ l :: a ∧ Blames F l m ∧
      (∀ a', parseSheetLoop d (b ++ l :: a') = .err m) ∧ Via (parseSheetLoop d) b := by
  induction p with
  | nil => intro d m h; cases h
  | cons s rest ih =>
    intro d m h
    have one : ∀ g : Said Sheet, Bl F s g →
        (∀ rest, parseSheetLoop d (s :: rest) = g >>= fun d' => parseSheetLoop d' rest) →
        ∃ b l a, s :: rest = b ++ l :: a ∧ Blames F l m ∧
          (∀ a', parseSheetLoop d (b ++ l :: a') = .err m) ∧ Via (parseSheetLoop d) b := by
      intro g hg he
      rw [he] at h
      rcases bind_eq_err.1 h with h | ⟨d', hd, h⟩
      · exact ⟨[], s, rest, rfl, hg m h, fun a' => by rw [List.nil_append, he, h]; rfl, via_sheet d⟩
      · obtain ⟨b, l, a, rfl, h1, h2, r, hrn, h3⟩ := ih d' m h
        refine ⟨s :: b, l, a, rfl, h1, fun a' => ?_, r, hrn, fun z => ?_⟩
        · rw [List.cons_append, he, hd]; exact h2 a'
        · obtain ⟨x, p', h4, h5⟩ := h3 z
          exact ⟨x, p', by rw [List.cons_append, List.cons_append, he, hd]; exact h4, h5⟩
    have he := fun rest => parseSheetLoop.eq_def d (s :: rest)
    dsimp only at he
    by_cases h0 : s = str! "$EndSheet"
    · rw [he, if_pos h0] at h; cases h
    simp only [if_neg h0] at he
    cases hw : firstWord s with
    | none => exact one _ (bl_ok d) fun rest => by rw [he, hw]; rfl
    | some w =>
      simp only [hw] at he
      by_cases h1 : w = str! "S"
      · exact one _ (bl_sheetS s d) fun rest => by rw [he, if_pos h1]
      by_cases h2 : w = str! "U"
      · exact one _ (bl_sheetU s d) fun rest => by rw [he, if_neg h1, if_pos h2]
      by_cases h3 : startsWith w (str! "F") = true
      · refine one _ ?_ fun rest => by rw [he, if_neg h1, if_neg h2, if_pos h3]
        obtain ⟨w', rfl⟩ := List.isPrefixOf_iff_prefix.1 h3
        exact bl_sheetF s w' d hw
      · exact one _ (bl_ok d) fun rest => by rw [he, if_neg h1, if_neg h2, if_neg h3]; rfl

theorem tr_item (sch : Schematic F) : Tr F (parseItem sch) := by
  have via0 : Via (parseItem sch) [] :=
    ⟨[str! "x"], by decide, fun z => ⟨{ sch with elements := sch.elements ++ [.other (str! "x")] }, str! "x" :: z, rfl, rfl⟩⟩
  intro p m h
  cases p with
  | nil => cases h
  | cons s rest =>
    cases hw : firstWord s with
    | none =>
      unfold parseItem at h
      rw [show here (s :: rest) = .ok s from rfl, bind_ok, hw] at h
      cases h
    | some w =>
      -- an item read by `f`
      have item : ∀ {γ : Type} (f : List Str → Said (γ × List Str)) (up : γ → Schematic F), Tr F f →
          (∀ rest, parseItem sch (s :: rest) = f (s :: rest) >>= fun r => .ok (up r.1, r.2)) →
          ∃ b l a, s :: rest = b ++ l :: a ∧ Blames F l m ∧
            (∀ a', parseItem sch (b ++ l :: a') = .err m) ∧ Via (parseItem sch) b := by
        intro γ f up hf he
        rw [he] at h
        rcases bind_eq_err.1 h with h | ⟨_, _, h⟩
        · obtain ⟨b, l, a, hp, h1, h2, r, hrn, h3⟩ := hf _ m h
          cases b with
          | nil =>
            obtain ⟨rfl, rfl⟩ := List.cons.inj hp
            exact ⟨[], s, rest, rfl, h1, fun a' => by
              rw [List.nil_append, he, show f (s :: a') = _ from h2 a']; rfl, via0⟩
          | cons c b =>
            obtain ⟨rfl, rfl⟩ := List.cons.inj hp
            refine ⟨s :: b, l, a, rfl, h1, fun a' => ?_, r, hrn, fun z => ?_⟩
            · rw [List.cons_append, he, show f (s :: (b ++ l :: a')) = _ from h2 a']; rfl
            · obtain ⟨x, p', h4, h5⟩ := h3 z
              refine ⟨up x, p', ?_, h5⟩
              rw [List.cons_append, List.cons_append, he, show f (s :: (b ++ r ++ z)) = _ from h4]; rfl
        · cases h
      have he : ∀ rest, parseItem sch (s :: rest) = _ := fun rest => by
        unfold parseItem
        rw [show here (s :: rest) = .ok s from rfl, bind_ok, hw]
      dsimp only at he
      by_cases h1 : w = str! "$Descr"
      · exact item _ (fun d => { sch with description := d }) tr_description fun rest => by rw [he, if_pos h1]
      by_cases h2 : w = str! "$Comp"
      · exact item _ (fun d => { sch with elements := sch.elements ++ [.component d] })
          (tr_skip (fun p m => tr_component _ _ p m (Nat.le_refl _)) (by intro m h; rw [parseComponentLoop.eq_def] at h; cases h))
          fun rest => by rw [he, if_neg h1, if_pos h2]; rfl
      by_cases h3 : w = str! "$Sheet"
      · exact item _ (fun d => { sch with sheets := sch.sheets ++ [d] })
          (tr_skip (fun p m => tr_sheet p _ m) (by intro m h; cases h))
          fun rest => by rw [he, if_neg h1, if_neg h2, if_pos h3]; rfl
      by_cases h4 : w = str! "$EndSCHEMATC"
      · rw [he, if_neg h1, if_neg h2, if_neg h3, if_pos h4] at h; cases h
      by_cases h5 : w = str! "Wire"
      · exact item _ (fun d => { sch with elements := sch.elements ++ [.wire d] }) tr_wire fun rest => by
          rw [he, if_neg h1, if_neg h2, if_neg h3, if_neg h4, if_pos h5]
      have trp : Tr F (last parsePos) := tr_last bl_pos
        (via_last (str! "NoConn ~ 0 0") (a := ⟨0, 0⟩) (by decide))
      by_cases h6 : w = str! "Connection"
      · exact item (last parsePos) (fun d => { sch with elements := sch.elements ++ [.connection d] }) trp fun rest => by
          rw [he, if_neg h1, if_neg h2, if_neg h3, if_neg h4, if_neg h5, if_pos h6]
          show _ = (parsePos s >>= fun a => Said.ok (a, s :: rest)) >>= _
          rw [Said.bind_assoc]; rfl
      by_cases h7 : w = str! "NoConn"
      · exact item (last parsePos) (fun d => { sch with elements := sch.elements ++ [.noConnect d] }) trp fun rest => by
          rw [he, if_neg h1, if_neg h2, if_neg h3, if_neg h4, if_neg h5, if_neg h6, if_pos h7]
          show _ = (parsePos s >>= fun a => Said.ok (a, s :: rest)) >>= _
          rw [Said.bind_assoc]; rfl
      by_cases h8 : w = str! "Text"
      · exact item _ (fun d => { sch with elements := sch.elements ++ [.text d] }) tr_text fun rest => by
          rw [he, if_neg h1, if_neg h2, if_neg h3, if_neg h4, if_neg h5, if_neg h6, if_neg h7, if_pos h8]
      · rw [he, if_neg h1, if_neg h2, if_neg h3, if_neg h4, if_neg h5, if_neg h6, if_neg h7, if_neg h8] at h; cases h

theorem part_inj {i j : Item F} (h : i.part = j.part) : i = j := by
  cases i <;> cases j <;> simp_all [Item.part]

/-- What was read is read again whatever follows. -/
theorem parseItem_prefix (sch sch' : Schematic F) (p q : List Str) (h : parseItem sch p = .ok (sch', q)) :
    ∃ c, c ≠ [] ∧ p = c ++ next q ∧ ∀ z, ∃ q', parseItem sch (c ++ z) = .ok (sch', q') ∧ next q' = z := by
  have h' := forget_eq_ok.2 h
  rw [parseItem_forget, Sch.parseItem_eq] at h'
  obtain ⟨⟨i, q1⟩, hi, h'⟩ := Res.bind_eq_ok.1 h'
  cases h'
  cases p with
  | nil => cases h
  | cons s p =>
    obtain ⟨c, hc, hp⟩ := read_part s p _ i ⟨_, hi, rfl⟩
    refine ⟨c, ?_, hc, fun z => ?_⟩
    · obtain ⟨s', r, _, _, rfl, _⟩ := part_read hp []
      simp
    · obtain ⟨_, _, i', q', _, h1, h2, h3⟩ := part_read hp z
      rw [part_inj h3] at h1
      refine ⟨q', ?_, h2⟩
      rw [← forget_eq_ok, parseItem_forget, Sch.parseItem_eq, h1]
      rfl

theorem parseItems_more {n : Nat} {sch : Schematic F} {p : List Str} (h0 : p ≠ []) :
    parseItems (n + 1) sch p = parseItem sch p >>= fun r => parseItems n r.1 (next r.2) := by
  cases p with
  | nil => exact absurd rfl h0
  | cons s p =>
    rw [parseItems]
    all_goals simp

theorem tr_items (n : Nat) : ∀ (sch : Schematic F) (p : List Str) (m : Str), parseItems n sch p = .err m →
    ∃ b l a, p = b ++ l :: a ∧ Blames F l m ∧
      (∀ a' n', (b ++ l :: a').length ≤ n' → parseItems n' sch (b ++ l :: a') = .err m) ∧
      ∃ r, (∀ l ∈ r, '\n' ∉ l) ∧ ∀ n', (b ++ r).length ≤ n' → ∃ x, parseItems n' sch (b ++ r) = .ok x := by
  induction n with
  | zero => intro sch p m h; cases p <;> cases h
  | succ n ih =>
    intro sch p m h
    have h0 : p ≠ [] := by rintro rfl; cases h
    rw [parseItems_more h0] at h
    rcases bind_eq_err.1 h with h | ⟨⟨sch', q⟩, hq, h⟩
    · obtain ⟨b, l, a, rfl, h1, h2, r, hrn, h3⟩ := tr_item sch p m h
      refine ⟨b, l, a, rfl, h1, fun a' n' hn => ?_, r, hrn, fun n' hn => ?_⟩
      · cases n' with
        | zero => simp at hn
        | succ n' => rw [parseItems_more (by simp), h2]; rfl
      · obtain ⟨x, p', h4, h5⟩ := h3 []
        rw [List.append_nil] at h4
        cases n' with
        | zero =>
          have : b ++ r = [] := List.eq_nil_of_length_eq_zero (by omega)
          rw [this] at h4; cases h4
        | succ n' =>
          refine ⟨x, ?_⟩
          rw [parseItems_more (by rintro e; rw [e] at h4; cases h4), h4]
          show parseItems n' x (next p') = _
          rw [h5]; cases n' <;> rfl
    · obtain ⟨c, hc0, hc, hz⟩ := parseItem_prefix sch sch' p q hq
      obtain ⟨b, l, a, hp, h1, h2, r, hrn, h3⟩ := ih sch' (next q) m h
      have hlen : 1 ≤ c.length := List.length_pos_iff.2 hc0
      refine ⟨c ++ b, l, a, by rw [hc, hp, List.append_assoc], h1, fun a' n' hn => ?_, r, hrn, fun n' hn => ?_⟩
      · cases n' with
        | zero => simp at hn
        | succ n' =>
          obtain ⟨q', hq', hn'⟩ := hz (b ++ l :: a')
          rw [List.append_assoc, parseItems_more (by simp), hq']
          show parseItems n' sch' (next q') = _
          rw [hn']
          exact h2 a' n' (by simp only [List.length_append, List.length_cons] at hn ⊢; omega)
      · cases n' with
        | zero => exact absurd hn (by simp only [List.length_append]; omega)
        | succ n' =>
          obtain ⟨q', hq', hn'⟩ := hz (b ++ r)
          rw [List.append_assoc, parseItems_more (by simp [hc0]), hq']
          show ∃ x, parseItems n' sch' (next q') = _
          rw [hn']
          exact h3 n' (by simp only [List.length_append] at hn ⊢; omega)

end Verif.Sch.Msg

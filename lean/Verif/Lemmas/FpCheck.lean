import Verif.Model.Footprint.Check
import Verif.Lemmas.Flt
/-!
# Lemmas about texts and the parts of `fix`
-/

namespace Verif.Fp
open Verif Flt

variable {F : Type}

/-- Not a text. -/
def notText : Elem F → Bool
  | .text _ => false
  | _ => true

/-- The elements that are not texts. -/
def nt (es : List (Elem F)) : List (Elem F) := es.filter notText

theorem nt_cons (e : Elem F) (es : List (Elem F)) :
    nt (e :: es) = if notText e then e :: nt es else nt es := by
  simp [nt, List.filter_cons]

theorem nt_append (a b : List (Elem F)) : nt (a ++ b) = nt a ++ nt b := List.filter_append ..

theorem nt_modText (w : Str) (f : FpText F → FpText F) (es : List (Elem F)) :
    nt (Module.modText w f es) = nt es := by
  induction es with
  | nil => rfl
  | cons e es ih =>
    cases e with
    | text t =>
      simp only [Module.modText]
      split <;> simp_all [nt_cons, notText]
    | _ => simp [Module.modText, nt_cons, notText, ih]

theorem pads_nt (m : Module F) : m.pads = (Module.mk m.name (nt m.elements)).pads := by
  obtain ⟨n, es⟩ := m
  simp only [Module.pads]
  induction es with
  | nil => rfl
  | cons e es ih => cases e <;> simp_all [nt_cons, notText]

theorem lines_nt (m : Module F) : m.lines = (Module.mk m.name (nt m.elements)).lines := by
  obtain ⟨n, es⟩ := m
  simp only [Module.lines]
  induction es with
  | nil => rfl
  | cons e es ih => cases e <;> simp_all [nt_cons, notText]

theorem hasSmdAttr_nt (m : Module F) :
    m.hasSmdAttr = (Module.mk m.name (nt m.elements)).hasSmdAttr := by
  obtain ⟨n, es⟩ := m
  simp only [Module.hasSmdAttr]
  induction es with
  | nil => rfl
  | cons e es ih => cases e <;> simp_all [nt_cons, notText]

theorem firstAt_nt (es : List (Elem F)) : Module.firstAt es = Module.firstAt (nt es) := by
  induction es with
  | nil => rfl
  | cons e es ih => cases e <;> simp_all [nt_cons, notText, Module.firstAt]

theorem boundFold_nt [Flt F] (x y : F) (es : List (Elem F)) (b : Bound F) :
    es.foldl (Module.boundStep x y) b = (nt es).foldl (Module.boundStep x y) b := by
  induction es generalizing b with
  | nil => rfl
  | cons e es ih =>
    rw [nt_cons, List.foldl_cons, ih]
    cases e with
    | text t => rfl
    | _ => rfl

theorem at_nt [Flt F] (n : Str) (es : List (Elem F)) :
    (Module.mk n es).at_ = (Module.mk n (nt es)).at_ := by
  simp only [Module.at_]; rw [firstAt_nt]

theorem bound_nt [Flt F] (m : Module F) : m.bound = (Module.mk m.name (nt m.elements)).bound := by
  obtain ⟨n, es⟩ := m
  simp only [Module.bound, at_nt n es]
  rw [boundFold_nt]

/-! ### getText and modText -/

theorem getText_cons (n : Str) (e : Elem F) (es : List (Elem F)) (w : Str) :
    Module.getText ⟨n, e :: es⟩ w =
      match e with
      | .text t => if t.name = w then some t else Module.getText ⟨n, es⟩ w
      | _ => Module.getText ⟨n, es⟩ w := by
  cases e with
  | text t => by_cases h : t.name = w <;> simp [Module.getText, h]
  | _ => simp [Module.getText]

theorem getText_name (n n' : Str) (es : List (Elem F)) (w : Str) :
    Module.getText ⟨n, es⟩ w = Module.getText ⟨n', es⟩ w := rfl

theorem getText_elements (m : Module F) (w : Str) :
    Module.getText ⟨[], m.elements⟩ w = m.getText w := rfl

theorem getText_append (n : Str) (a b : List (Elem F)) (w : Str) :
    Module.getText ⟨n, a ++ b⟩ w = (Module.getText ⟨n, a⟩ w).or (Module.getText ⟨n, b⟩ w) := by
  simp [Module.getText, List.findSome?_append]

theorem getText_modText_same (n w : Str) (f : FpText F → FpText F) (hf : ∀ t, (f t).name = t.name)
    (es : List (Elem F)) :
    Module.getText ⟨n, Module.modText w f es⟩ w = (Module.getText ⟨n, es⟩ w).map f := by
  induction es with
  | nil => rfl
  | cons e es ih =>
    cases e with
    | text t =>
      by_cases h : t.name = w
      · simp [Module.modText, h, getText_cons, hf]
      · simp [Module.modText, h, getText_cons, ih]
    | _ => simp [Module.modText, getText_cons, ih]

theorem getText_modText_ne (n w w' : Str) (hw : w ≠ w') (f : FpText F → FpText F)
    (hf : ∀ t, (f t).name = t.name) (es : List (Elem F)) :
    Module.getText ⟨n, Module.modText w f es⟩ w' = Module.getText ⟨n, es⟩ w' := by
  induction es with
  | nil => rfl
  | cons e es ih =>
    cases e with
    | text t =>
      by_cases h : t.name = w
      · simp [Module.modText, h, getText_cons, hf, hw]
      · simp [Module.modText, h, getText_cons, ih]
    | _ => simp [Module.modText, getText_cons, ih]

theorem getText_nt (n : Str) (es : List (Elem F)) (h : nt es = es) (w : Str) :
    Module.getText ⟨n, es⟩ w = none := by
  have h' : ∀ e ∈ es, notText e = true := List.filter_eq_self.1 h
  clear h
  induction es with
  | nil => rfl
  | cons e es ih =>
    rw [List.forall_mem_cons] at h'
    have := ih h'.2
    cases e <;> simp_all [getText_cons, notText]

theorem modText_none (w : Str) (f : FpText F → FpText F) (es : List (Elem F))
    (h : Module.getText ⟨[], es⟩ w = none) : Module.modText w f es = es := by
  induction es with
  | nil => rfl
  | cons e es ih =>
    rw [getText_cons] at h
    cases e with
    | text t =>
      by_cases h1 : t.name = w
      · simp [h1] at h
      · simp only [h1, if_false] at h
        simp [Module.modText, h1, ih h]
    | _ => simp only at h; simp [Module.modText, ih h]

theorem modText_append (w : Str) (f : FpText F → FpText F) (a b : List (Elem F)) :
    Module.modText w f (a ++ b) =
      if (Module.getText ⟨[], a⟩ w).isSome then Module.modText w f a ++ b
      else a ++ Module.modText w f b := by
  induction a with
  | nil => simp [Module.getText]
  | cons e a ih =>
    rw [getText_cons]
    cases e with
    | text t =>
      by_cases h1 : t.name = w
      · simp [Module.modText, h1]
      · simp only [List.cons_append, Module.modText, h1, if_false, ih]; split <;> rfl
    | _ => simp only [List.cons_append, Module.modText, ih]; split <;> rfl

theorem modText_nt (w : Str) (f : FpText F → FpText F) (a b : List (Elem F)) (h : nt b = b) :
    Module.modText w f (a ++ b) = Module.modText w f a ++ b := by
  rw [modText_append]
  split
  · rfl
  · rename_i h1
    rw [modText_none w f a (by simpa using h1),
      modText_none w f b (getText_nt _ _ h _)]

theorem modText_twice (w : Str) (f g : FpText F → FpText F) (hf : ∀ t, (f t).name = t.name)
    (es : List (Elem F)) :
    Module.modText w g (Module.modText w f es) = Module.modText w (fun t => g (f t)) es := by
  induction es with
  | nil => rfl
  | cons e es ih =>
    cases e with
    | text t =>
      by_cases h : t.name = w
      · simp [Module.modText, h, hf]
      · simp [Module.modText, h, ih]
    | _ => simp [Module.modText, ih]

theorem modText_comm (w w' : Str) (hw : w ≠ w') (f g : FpText F → FpText F)
    (hf : ∀ t, (f t).name = t.name) (hg : ∀ t, (g t).name = t.name) (es : List (Elem F)) :
    Module.modText w' g (Module.modText w f es) = Module.modText w f (Module.modText w' g es) := by
  induction es with
  | nil => rfl
  | cons e es ih =>
    cases e with
    | text t =>
      by_cases h : t.name = w
      · have : ¬ t.name = w' := by rw [h]; exact hw
        simp [Module.modText, h, hf, hw]
      · by_cases h' : t.name = w'
        · simp [Module.modText, h', hg, Ne.symm hw]
        · simp [Module.modText, h, h', ih]
    | _ => simp [Module.modText, ih]

/-! ### Pieces of `fix` -/

variable [Flt F]

omit [Flt F] in
theorem fixText_name (cfg : Config F) (v : Str) (t : LayerType) (x : FpText F) :
    (fixText cfg v t x).name = x.name := rfl

omit [Flt F] in
theorem fixText_idem (cfg : Config F) (v : Str) (t : LayerType) (x : FpText F) :
    fixText cfg v t (fixText cfg v t x) = fixText cfg v t x := rfl

theorem differs_self [MonoLaws F] (a : F) : differs a a = false := by
  rw [differs, MonoLaws.sub_self, MonoLaws.abs_zero, OrdLaws.lt_eq, MonoLaws.eps_nonneg]
  rfl

/-- The text part of `fix`, in closed form. -/
theorem fixTexts_eq (cfg : Config F) (m : Module F) :
    (fixTexts cfg m).elements =
      Module.modText (str! "user") (fixText cfg (str! "%R") .fab)
        (Module.modText (str! "value") (fixText cfg m.name .fab)
          (Module.modText (str! "reference") (fixText cfg (str! "REF**") .silkS) m.elements)) ++
      (if (m.getText (str! "user")).isNone then [.text (newReference2 cfg)] else []) := by
  have hru : (str! "reference") ≠ (str! "user") := by decide
  have hvu : (str! "value") ≠ (str! "user") := by decide
  have hg : Module.getText (Module.mk m.name (Module.modText (str! "value") (fixText cfg m.name .fab)
      (Module.modText (str! "reference") (fixText cfg (str! "REF**") .silkS) m.elements))) (str! "user")
      = m.getText (str! "user") := by
    rw [getText_modText_ne _ _ _ hvu _ (fixText_name _ _ _),
      getText_modText_ne _ _ _ hru _ (fixText_name _ _ _)]
  simp only [fixTexts, hg]
  split
  · rename_i h
    rw [modText_append]
    rw [getText_name [] m.name, hg]
    have hn : m.getText (str! "user") = none := by simpa using h
    rw [hn]
    simp only [Option.isSome_none, Bool.false_eq_true, if_false]
    rw [modText_none (str! "user") (fixText cfg (str! "%R") .fab)
      (Module.modText (str! "value") _ _) (by rw [getText_name [] m.name, hg, hn])]
    rfl
  · simp

theorem fixTexts_name (cfg : Config F) (m : Module F) : (fixTexts cfg m).name = m.name := rfl

theorem nt_fixTexts (cfg : Config F) (m : Module F) :
    nt (fixTexts cfg m).elements = nt m.elements := by
  rw [fixTexts_eq, nt_append, nt_modText, nt_modText, nt_modText]
  split <;> simp [nt, notText]

end Verif.Fp

namespace Verif.Fp
open Verif Flt

variable {F : Type} [Flt F]

/-- The attribute `fix` adds. -/
def addedAttr (m : Module F) : List (Elem F) :=
  if pthCount m = 0 ∧ smdCount m > 0 ∧ m.hasSmdAttr = false then [.attr (str! "smd")] else []

/-- The text `fix` adds. -/
def addedText (cfg : Config F) (m : Module F) : List (Elem F) :=
  if (m.getText (str! "user")).isNone then [.text (newReference2 cfg)] else []

/-- The courtyard `fix` adds. -/
def addedLines (m : Module F) : List (Elem F) :=
  if courtyardCount m < 4 then courtyardLines m else []

/-- The original elements after `fix`. -/
def keptElems (cfg : Config F) (m : Module F) : List (Elem F) :=
  Module.modText (str! "user") (fixText cfg (str! "%R") .fab)
    (Module.modText (str! "value") (fixText cfg m.name .fab)
      (Module.modText (str! "reference") (fixText cfg (str! "REF**") .silkS) m.elements))

theorem pads_eq_of_nt {a b : Module F} (h : nt a.elements = nt b.elements) : a.pads = b.pads := by
  rw [pads_nt a, pads_nt b, h]; rfl

theorem lines_eq_of_nt {a b : Module F} (h : nt a.elements = nt b.elements) : a.lines = b.lines := by
  rw [lines_nt a, lines_nt b, h]; rfl

theorem attr_eq_of_nt {a b : Module F} (h : nt a.elements = nt b.elements) :
    a.hasSmdAttr = b.hasSmdAttr := by
  rw [hasSmdAttr_nt a, hasSmdAttr_nt b, h]; rfl

theorem bound_name (n n' : Str) (es : List (Elem F)) :
    (Module.mk n es).bound = (Module.mk n' es).bound := rfl

theorem bound_eq_of_nt {a b : Module F} (h : nt a.elements = nt b.elements) : a.bound = b.bound := by
  rw [bound_nt a, bound_nt b, h]; rfl

theorem at_eq_of_nt {a b : Module F} (h : nt a.elements = nt b.elements) : a.at_ = b.at_ := by
  obtain ⟨n, es⟩ := a
  obtain ⟨n', es'⟩ := b
  rw [at_nt n es, at_nt n' es']
  simp only at h
  rw [h]; rfl

theorem firstAt_append (a b : List (Elem F)) :
    Module.firstAt (a ++ b) = (Module.firstAt a).or (Module.firstAt b) := by
  induction a with
  | nil => simp [Module.firstAt]
  | cons e a ih => cases e <;> simp [Module.firstAt, ih]

theorem addedAttr_at (m : Module F) : Module.firstAt (addedAttr m) = none := by
  simp only [addedAttr]; split <;> rfl

theorem at_append_attr (n : Str) (es : List (Elem F)) (m : Module F) :
    (Module.mk n (es ++ addedAttr m)).at_ = (Module.mk n es).at_ := by
  simp only [Module.at_, firstAt_append, addedAttr_at, Option.or_none]

theorem bound_append_attr (n : Str) (es : List (Elem F)) (m : Module F) :
    (Module.mk n (es ++ addedAttr m)).bound = (Module.mk n es).bound := by
  simp only [Module.bound, at_append_attr, List.foldl_append]
  congr 1
  simp only [addedAttr]; split <;> rfl

theorem fixPlacement_eq (m : Module F) :
    fixPlacement m = { m with elements := m.elements ++ addedAttr m } := by
  simp only [fixPlacement, addedAttr, Module.append]
  by_cases h : pthCount m = 0 ∧ smdCount m > 0
  · cases hs : m.hasSmdAttr <;> simp [h]
  · have : ¬ (pthCount m = 0 ∧ smdCount m > 0 ∧ m.hasSmdAttr = false) := fun x => h ⟨x.1, x.2.1⟩
    simp [h, this]

theorem lines_append (n : Str) (a b : List (Elem F)) :
    (Module.mk n (a ++ b)).lines = (Module.mk n a).lines ++ (Module.mk n b).lines := by
  simp [Module.lines]

theorem pads_append (n : Str) (a b : List (Elem F)) :
    (Module.mk n (a ++ b)).pads = (Module.mk n a).pads ++ (Module.mk n b).pads := by
  simp [Module.pads]

theorem attr_append (n : Str) (a b : List (Elem F)) :
    (Module.mk n (a ++ b)).hasSmdAttr = ((Module.mk n a).hasSmdAttr || (Module.mk n b).hasSmdAttr) := by
  simp [Module.hasSmdAttr]

theorem nt_fixTexts' (cfg : Config F) (m : Module F) :
    nt (fixTexts cfg m).elements = nt m.elements := nt_fixTexts cfg m

theorem addedAttr_fixTexts (cfg : Config F) (m : Module F) :
    addedAttr (fixTexts cfg m) = addedAttr m := by
  have h := nt_fixTexts cfg m
  have h1 : pthCount (fixTexts cfg m) = pthCount m := by rw [pthCount, pads_eq_of_nt h]; rfl
  have h2 : smdCount (fixTexts cfg m) = smdCount m := by rw [smdCount, pads_eq_of_nt h]; rfl
  simp only [addedAttr, h1, h2, attr_eq_of_nt h]

theorem addedAttr_lines (n : Str) (m : Module F) : (Module.mk n (addedAttr m)).lines = [] := by
  simp only [addedAttr]; split <;> rfl

theorem courtyardLines_congr {a b : Module F} (hn : a.name = b.name) (hb : a.bound = b.bound)
    (ha : a.at_ = b.at_) : courtyardLines a = courtyardLines b := by
  simp only [courtyardLines, courtyardBox, courtyardOffset, hn, hb, ha]

/-- `fix`, in closed form: the original elements with the three texts corrected,
then what was missing. -/
theorem fix_eq (cfg : Config F) (m : Module F) :
    m.fix cfg = ⟨m.name, keptElems cfg m ++ addedText cfg m ++ addedAttr m ++ addedLines m⟩ := by
  have e1 : (fixTexts cfg m).elements = keptElems cfg m ++ addedText cfg m := fixTexts_eq cfg m
  have h2 : fixPlacement (fixTexts cfg m) =
      ⟨m.name, keptElems cfg m ++ addedText cfg m ++ addedAttr m⟩ := by
    rw [fixPlacement_eq, addedAttr_fixTexts, e1]; rfl
  have hn : nt (keptElems cfg m ++ addedText cfg m) = nt m.elements := by
    rw [← e1]; exact nt_fixTexts cfg m
  have hl : courtyardCount (Module.mk m.name (keptElems cfg m ++ addedText cfg m ++ addedAttr m)) =
      courtyardCount m := by
    simp only [courtyardCount]
    rw [lines_append, addedAttr_lines, List.append_nil,
      lines_eq_of_nt (a := Module.mk m.name (keptElems cfg m ++ addedText cfg m)) (b := m) hn]
  have hc : courtyardLines (Module.mk m.name (keptElems cfg m ++ addedText cfg m ++ addedAttr m)) =
      courtyardLines m := by
    refine courtyardLines_congr rfl ?_ ?_
    · rw [bound_append_attr,
        bound_eq_of_nt (a := Module.mk m.name (keptElems cfg m ++ addedText cfg m)) (b := m) hn]
    · rw [at_append_attr,
        at_eq_of_nt (a := Module.mk m.name (keptElems cfg m ++ addedText cfg m)) (b := m) hn]
  rw [Module.fix, h2, fixCourtyard, hl, hc, addedLines]
  split <;> simp

theorem nt_kept (cfg : Config F) (m : Module F) : nt (keptElems cfg m) = nt m.elements := by
  rw [keptElems, nt_modText, nt_modText, nt_modText]

theorem nt_addedText (cfg : Config F) (m : Module F) : nt (addedText cfg m) = [] := by
  simp only [addedText]; split <;> simp [nt, notText]

theorem nt_addedAttr (m : Module F) : nt (addedAttr m) = addedAttr m := by
  simp only [addedAttr]; split <;> simp [nt, notText]

theorem nt_addedLines (m : Module F) : nt (addedLines m) = addedLines m := by
  simp only [addedLines, courtyardLines]; split <;> simp [nt, notText]

/-- The texts after `fix`. -/
theorem getText_fix (cfg : Config F) (m : Module F) (w : Str) :
    (m.fix cfg).getText w =
      if w = str! "reference" then
        (m.getText (str! "reference")).map (fixText cfg (str! "REF**") .silkS)
      else if w = str! "value" then (m.getText (str! "value")).map (fixText cfg m.name .fab)
      else if w = str! "user" then
        some (((m.getText (str! "user")).map (fixText cfg (str! "%R") .fab)).getD (newReference2 cfg))
      else m.getText w := by
  have N := fixText_name (F := F)
  rw [fix_eq, List.append_assoc, getText_append, getText_append,
    getText_nt _ (addedAttr m ++ addedLines m) (by rw [nt_append, nt_addedAttr, nt_addedLines]),
    Option.or_none, keptElems]
  by_cases h1 : w = str! "reference"
  · subst h1
    rw [getText_modText_ne _ _ _ (by decide) _ (N _ _ _), getText_modText_ne _ _ _ (by decide) _ (N _ _ _),
      getText_modText_same _ _ _ (N _ _ _)]
    have : Module.getText ⟨m.name, addedText cfg m⟩ (str! "reference") = none := by
      simp only [addedText]; split <;> rfl
    rw [this]
    simp
  · by_cases h2 : w = str! "value"
    · subst h2
      rw [getText_modText_ne _ _ _ (by decide) _ (N _ _ _), getText_modText_same _ _ _ (N _ _ _),
        getText_modText_ne _ _ _ (by decide) _ (N _ _ _)]
      have : Module.getText ⟨m.name, addedText cfg m⟩ (str! "value") = none := by
        simp only [addedText]; split <;> rfl
      rw [this]
      simp
    · by_cases h3 : w = str! "user"
      · subst h3
        rw [getText_modText_same _ _ _ (N _ _ _), getText_modText_ne _ _ _ (by decide) _ (N _ _ _),
          getText_modText_ne _ _ _ (by decide) _ (N _ _ _)]
        simp only [addedText]
        have hm : Module.getText (Module.mk m.name m.elements) (str! "user") = m.getText (str! "user") := rfl
        rw [hm]
        cases m.getText (str! "user") <;> simp
        rfl
      · rw [getText_modText_ne _ _ _ (Ne.symm h3) _ (N _ _ _),
          getText_modText_ne _ _ _ (Ne.symm h2) _ (N _ _ _),
          getText_modText_ne _ _ _ (Ne.symm h1) _ (N _ _ _)]
        have : Module.getText ⟨m.name, addedText cfg m⟩ w = none := by
          simp only [addedText]; split
          · simp [Module.getText, newReference2, Ne.symm h3]
          · rfl
        rw [this]
        simp [h1, h2, h3]

theorem addedLines_pads (n : Str) (m : Module F) : (Module.mk n (addedLines m)).pads = [] := by
  simp only [addedLines]; split <;> rfl

theorem addedAttr_pads (n : Str) (m : Module F) : (Module.mk n (addedAttr m)).pads = [] := by
  simp only [addedAttr]; split <;> rfl

theorem pads_fix (cfg : Config F) (m : Module F) : (m.fix cfg).pads = m.pads := by
  rw [fix_eq, pads_append, pads_append, addedLines_pads, addedAttr_pads, List.append_nil,
    List.append_nil]
  apply pads_eq_of_nt
  rw [nt_append, nt_kept, nt_addedText, List.append_nil]

theorem attr_fix (cfg : Config F) (m : Module F) :
    (m.fix cfg).hasSmdAttr =
      (m.hasSmdAttr || decide (pthCount m = 0 ∧ smdCount m > 0)) := by
  have h0 : (Module.mk m.name (keptElems cfg m ++ addedText cfg m)).hasSmdAttr = m.hasSmdAttr := by
    apply attr_eq_of_nt
    rw [nt_append, nt_kept, nt_addedText, List.append_nil]
  have h1 : (Module.mk m.name (addedLines m)).hasSmdAttr = false := by
    simp only [addedLines]; split <;> rfl
  rw [fix_eq, attr_append, attr_append, h0, h1, Bool.or_false]
  cases ha : m.hasSmdAttr
  · by_cases h : pthCount m = 0 ∧ smdCount m > 0
    · have e : addedAttr m = [.attr (str! "smd")] := by rw [addedAttr, if_pos ⟨h.1, h.2, ha⟩]
      rw [e, decide_eq_true h]; rfl
    · have : ¬ (pthCount m = 0 ∧ smdCount m > 0 ∧ m.hasSmdAttr = false) := fun x => h ⟨x.1, x.2.1⟩
      have e : addedAttr m = [] := by rw [addedAttr, if_neg this]
      rw [e, decide_eq_false h]; rfl
  · rfl

theorem courtyardCount_fix (cfg : Config F) (m : Module F) :
    courtyardCount (m.fix cfg) =
      if courtyardCount m < 4 then courtyardCount m + 4 else courtyardCount m := by
  have h0 : (Module.mk m.name (keptElems cfg m ++ addedText cfg m)).lines = m.lines := by
    apply lines_eq_of_nt
    rw [nt_append, nt_kept, nt_addedText, List.append_nil]
  rw [fix_eq, courtyardCount, lines_append, lines_append, addedAttr_lines, h0, List.append_nil,
    List.filter_append, List.length_append]
  split
  · rename_i h
    simp only [addedLines, h, if_true]
    rfl
  · rename_i h
    simp only [addedLines, h, if_false]
    rfl

end Verif.Fp

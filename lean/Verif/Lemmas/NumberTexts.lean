import Verif.Spec.NumberTexts
import Verif.Lemmas.Coords
/-!
# Reading number texts, exactly
-/

namespace Verif
open Spec Fp64

/-! ## Digits -/

theorem decimal_all {w : Str} {n : Nat} (h : Decimal w n) : w ≠ [] ∧ (∀ c ∈ w, isDig c = true) ∧ digitsVal w = n := by
  have hr := decimal_read h
  refine ⟨?_, ?_, by simp [digitsVal, hr]⟩
  · obtain ⟨c, v, rfl, _⟩ := h.head; simp
  · clear hr
    have key : ∀ {c : Char} {d : Nat}, digits[d]? = some c → isDig c = true := by
      intro c d hc
      obtain ⟨h1, h2⟩ := (digit_iff c d).2 hc
      simp [isDig, h1, h2]
    induction h with
    | one h => simpa using key h
    | more _ h ih =>
      intro c hc
      rcases List.mem_append.1 hc with hc | hc
      · exact ih c hc
      · simp only [List.mem_cons, List.not_mem_nil, or_false] at hc
        subst hc; exact key h

theorem all_readDigits : ∀ (w : Str) (acc : Nat), (∀ c ∈ w, isDig c = true) → ∃ n, readDigits 10 acc w = some n
  | [], acc, _ => ⟨acc, rfl⟩
  | c :: w, acc, h => by
    have hc := h c (List.mem_cons_self ..)
    unfold isDig at hc
    cases hd : digitVal? c with
    | none => rw [hd] at hc; cases hc
    | some d =>
      rw [hd] at hc
      have hlt : d < 10 := by simpa using hc
      rw [readDigits, hd]
      simp only [hlt, if_true]
      exact all_readDigits w _ fun c hc => h c (List.mem_cons_of_mem _ hc)

theorem all_decimal {w : Str} (hw : w ≠ []) (h : ∀ c ∈ w, isDig c = true) : Decimal w (digitsVal w) := by
  obtain ⟨n, hn⟩ := all_readDigits w 0 h
  have : digitsVal w = n := by simp [digitsVal, hn]
  rw [this]
  exact decimal_of_read hw hn

theorem takeWhile_digits (s : Str) : ∀ c ∈ s.takeWhile isDig, isDig c = true := by
  induction s with
  | nil => simp
  | cons a s ih =>
    intro c hc
    by_cases ha : isDig a = true
    · rw [List.takeWhile_cons_of_pos ha] at hc
      rcases List.mem_cons.1 hc with rfl | hc
      · exact ha
      · exact ih c hc
    · rw [List.takeWhile_cons_of_neg ha] at hc; cases hc

/-- Digits followed by something else. -/
theorem split_digits {i t : Str} (hi : ∀ c ∈ i, isDig c = true) (ht : ∀ c, t.head? = some c → isDig c = false) :
    (i ++ t).takeWhile isDig = i ∧ (i ++ t).dropWhile isDig = t := by
  induction i with
  | nil =>
    cases t with
    | nil => simp
    | cons c t => have := ht c rfl; simp [this]
  | cons c i ih =>
    have hc := hi c (List.mem_cons_self ..)
    obtain ⟨h1, h2⟩ := ih fun c hc => hi c (List.mem_cons_of_mem _ hc)
    simp [hc, h1, h2]

/-! ## Exponents -/

theorem readExp_iff (t : Str) (n : Int) : readExp t = some n ↔ Exponent t n := by
  have key : ∀ t : Str, (t ≠ [] ∧ t.all isDig = true) → Decimal t (digitsVal t) := by
    rintro t ⟨h1, h2⟩
    exact all_decimal h1 fun c hc => List.all_eq_true.1 h2 c hc
  have key2 : ∀ {t : Str} {n : Nat}, Decimal t n → (t ≠ [] ∧ t.all isDig = true) ∧ digitsVal t = n := by
    intro t n h
    obtain ⟨h1, h2, h3⟩ := decimal_all h
    exact ⟨⟨h1, List.all_eq_true.2 h2⟩, h3⟩
  constructor
  · intro h
    unfold readExp at h
    split at h <;> split at h <;> cases h
    · exact .minus (key _ ‹_›)
    · exact .plus (key _ ‹_›)
    · exact .plain (key _ ‹_›)
  · intro h
    cases h with
    | plus h => obtain ⟨h1, h2⟩ := key2 h; simp only [readExp]; rw [if_pos h1, h2]
    | minus h => obtain ⟨h1, h2⟩ := key2 h; simp only [readExp]; rw [if_pos h1, h2]
    | plain h =>
      obtain ⟨h1, h2⟩ := key2 h
      obtain ⟨c, v, rfl, hc⟩ := h.head
      have e : readExp (c :: v) = if c :: v ≠ [] ∧ (c :: v).all isDig then some (digitsVal (c :: v) : Int) else none := by
        unfold readExp
        split
        · rename_i heq; cases heq; exact absurd hc (by decide)
        · rename_i heq; cases heq; exact absurd hc (by decide)
        · rfl
      rw [e, if_pos h1, h2]

/-- What may follow the digits. -/
inductive Scale (u : ℚ) : Str → ℚ → Prop
  | nil : Scale u [] u
  | exp {c t n} (hc : c = 'e' ∨ c = 'E') (ht : Exponent t n) : Scale u (c :: t) (u * (10 : ℚ) ^ n)

theorem scaled_iff (u : ℚ) (t : Str) (v : ℚ) : scaled u t = some v ↔ Scale u t v := by
  constructor
  · intro h
    cases t with
    | nil => cases h; exact .nil
    | cons c t =>
      simp only [scaled] at h
      split at h
      · rename_i hc
        obtain ⟨n, hn, rfl⟩ := Option.map_eq_some_iff.1 h
        rw [pow10_eq]
        exact .exp hc ((readExp_iff t n).1 hn)
      · cases h
  · intro h
    cases h with
    | nil => rfl
    | exp hc ht =>
      rw [scaled, if_pos hc, (readExp_iff _ _).2 ht, Option.map_some, pow10_eq]

theorem Scale.head {u : ℚ} {t : Str} {v : ℚ} (h : Scale u t v) : ∀ c, t.head? = some c → c = 'e' ∨ c = 'E' := by
  intro c hc
  cases h with
  | nil => cases hc
  | exp h _ => cases hc; exact h

theorem Scale.head_not {u : ℚ} {t : Str} {v : ℚ} (h : Scale u t v) : ∀ c, t.head? = some c → isDig c = false := by
  intro c hc
  rcases h.head c hc with rfl | rfl <;> decide

/-! ## Magnitudes -/

theorem readMag_scale {s t : Str} {u v : ℚ} (hs : Mantissa s u) (ht : Scale u t v) : readMag (s ++ t) = some v := by
  cases hs with
  | @whole i d h =>
    obtain ⟨h1, h2, h3⟩ := decimal_all h
    obtain ⟨e1, e2⟩ := split_digits h2 ht.head_not
    unfold readMag
    simp only [e1, e2]
    split
    · exact absurd (ht.head '.' rfl) (by decide)
    · rw [if_neg h1, h3]; exact (scaled_iff _ _ _).2 ht
  | @point i f d h =>
    obtain ⟨h1, h2, h3⟩ := decimal_all h
    obtain ⟨e1, e2⟩ := split_digits (i := i) (t := '.' :: (f ++ t)) (fun c hc => h2 c (List.mem_append_left _ hc))
      (fun c hc => by cases hc; decide)
    obtain ⟨e3, e4⟩ := split_digits (i := f) (t := t) (fun c hc => h2 c (List.mem_append_right _ hc)) ht.head_not
    have e : (i ++ '.' :: f) ++ t = i ++ '.' :: (f ++ t) := by simp
    rw [e]
    unfold readMag
    simp only [e1, e2, e3, e4]
    rw [if_neg (by rintro ⟨rfl, rfl⟩; exact h1 rfl), h3, F64.pow10_div]
    exact (scaled_iff _ _ _).2 ht

theorem Scale.magnitude {s t : Str} {u v : ℚ} (hs : Mantissa s u) (ht : Scale u t v) : Magnitude (s ++ t) v := by
  cases ht with
  | nil => rw [List.append_nil]; exact .plain hs
  | exp hc ht => exact .scaled hs hc ht

theorem readMag_iff (s : Str) (v : ℚ) : readMag s = some v ↔ Magnitude s v := by
  constructor
  · intro h
    have hs : s = s.takeWhile isDig ++ s.dropWhile isDig := (List.takeWhile_append_dropWhile).symm
    have hi := takeWhile_digits s
    unfold readMag at h
    dsimp only at h
    generalize s.takeWhile isDig = i at *
    generalize s.dropWhile isDig = r at *
    split at h
    · rename_i r
      split at h
      · cases h
      · rename_i hne
        have hr : r = r.takeWhile isDig ++ r.dropWhile isDig := (List.takeWhile_append_dropWhile).symm
        have hf := takeWhile_digits r
        generalize r.takeWhile isDig = f at *
        generalize r.dropWhile isDig = t at *
        subst hs hr
        have e : i ++ '.' :: (f ++ t) = (i ++ '.' :: f) ++ t := by simp
        rw [e]
        rw [F64.pow10_div] at h
        refine Scale.magnitude (.point (all_decimal ?_ ?_)) ((scaled_iff _ _ _).1 h)
        · intro e
          exact hne (List.append_eq_nil_iff.1 e)
        · intro c hc
          rcases List.mem_append.1 hc with hc | hc
          · exact hi c hc
          · exact hf c hc
    · split at h
      · cases h
      · rename_i hne
        rw [hs]
        exact Scale.magnitude (.whole (all_decimal hne hi)) ((scaled_iff _ _ _).1 h)
  · intro h
    cases h with
    | plain h => have := readMag_scale h .nil; rwa [List.append_nil] at this
    | scaled h hc ht => exact readMag_scale h (.exp hc ht)

/-! ## Words -/

theorem lower_iff {c l u : Char} (hl : 97 ≤ l.toNat ∧ l.toNat ≤ 122) (hu : l = Char.ofNat (u.toNat + 32))
    (hu2 : 65 ≤ u.toNat ∧ u.toNat ≤ 90) : F64.lower c = l ↔ c = l ∨ c = u := by
  have e1 : 'A'.toNat = 65 := rfl
  have e2 : 'Z'.toNat = 90 := rfl
  unfold F64.lower
  rw [e1, e2]
  constructor
  · intro h
    split at h
    · rename_i hc
      right
      have h2 : Char.ofNat (c.toNat + 32) = Char.ofNat (u.toNat + 32) := h.trans hu
      have hv : ∀ n, 65 ≤ n → n ≤ 90 → (Char.ofNat (n + 32)).toNat = n + 32 := by
        intro n h1 h2
        have : ∀ n < 91, 65 ≤ n → (Char.ofNat (n + 32)).toNat = n + 32 := by decide
        exact this n (by omega) h1
      have h3 := congrArg Char.toNat h2
      rw [hv _ hc.1 hc.2, hv _ hu2.1 hu2.2] at h3
      have h4 : c.toNat = u.toNat := by omega
      rw [← Char.ofNat_toNat c, h4, Char.ofNat_toNat]
    · exact .inl h
  · rintro (rfl | rfl)
    · rw [if_neg (by omega)]
    · rw [if_pos hu2, hu]

theorem spelt_iff : ∀ (w : List (Char × Char)) (_ : ∀ p ∈ w, ∀ c, F64.lower c = p.1 ↔ c = p.1 ∨ c = p.2) (s : Str),
    s.map F64.lower = w.map Prod.fst ↔ Spelt s w
  | [], _, s => by
    constructor
    · intro h
      have : s = [] := by simpa using h
      subst this; exact .nil
    · rintro ⟨⟩; rfl
  | p :: w, hw, s => by
    constructor
    · intro h
      cases s with
      | nil => cases h
      | cons c t =>
        simp only [List.map_cons, List.cons.injEq] at h
        exact .cons ((hw p (List.mem_cons_self ..) c).1 h.1) ((spelt_iff w (fun q hq => hw q (List.mem_cons_of_mem _ hq)) t).1 h.2)
    · rintro (_ | ⟨hc, h⟩)
      simp only [List.map_cons, List.cons.injEq]
      exact ⟨(hw p (List.mem_cons_self ..) _).2 hc, (spelt_iff w (fun q hq => hw q (List.mem_cons_of_mem _ hq)) _).2 h⟩

theorem letter_iff {p : Char × Char}
    (hp : p ∈ [('i', 'I'), ('n', 'N'), ('f', 'F'), ('t', 'T'), ('y', 'Y'), ('a', 'A')]) (c : Char) :
    F64.lower c = p.1 ↔ c = p.1 ∨ c = p.2 := by
  simp only [List.mem_cons, List.not_mem_nil, or_false] at hp
  rcases hp with rfl | rfl | rfl | rfl | rfl | rfl <;>
    exact lower_iff (by decide) (by decide) (by decide)

theorem nan_iff (s : Str) : s.map F64.lower = str! "nan" ↔ Spelt s [('n', 'N'), ('a', 'A'), ('n', 'N')] :=
  spelt_iff [('n', 'N'), ('a', 'A'), ('n', 'N')]
    (fun p hp c => letter_iff ((by decide : ∀ p ∈ [('n', 'N'), ('a', 'A'), ('n', 'N')],
      p ∈ [('i', 'I'), ('n', 'N'), ('f', 'F'), ('t', 'T'), ('y', 'Y'), ('a', 'A')]) p hp) c) s

theorem inf_iff (s : Str) : s.map F64.lower = str! "inf" ↔ Spelt s [('i', 'I'), ('n', 'N'), ('f', 'F')] :=
  spelt_iff [('i', 'I'), ('n', 'N'), ('f', 'F')]
    (fun p hp c => letter_iff ((by decide : ∀ p ∈ [('i', 'I'), ('n', 'N'), ('f', 'F')],
      p ∈ [('i', 'I'), ('n', 'N'), ('f', 'F'), ('t', 'T'), ('y', 'Y'), ('a', 'A')]) p hp) c) s

theorem infinity_iff (s : Str) : s.map F64.lower = str! "infinity" ↔ Spelt s [('i', 'I'), ('n', 'N'), ('f', 'F'),
    ('i', 'I'), ('n', 'N'), ('i', 'I'), ('t', 'T'), ('y', 'Y')] :=
  spelt_iff [('i', 'I'), ('n', 'N'), ('f', 'F'), ('i', 'I'), ('n', 'N'), ('i', 'I'), ('t', 'T'), ('y', 'Y')]
    (fun p hp c => letter_iff ((by decide : ∀ p ∈ [('i', 'I'), ('n', 'N'), ('f', 'F'), ('i', 'I'), ('n', 'N'), ('i', 'I'),
      ('t', 'T'), ('y', 'Y')], p ∈ [('i', 'I'), ('n', 'N'), ('f', 'F'), ('t', 'T'), ('y', 'Y'), ('a', 'A')]) p hp) c) s

/-! ## Number texts -/

/-- The number meant by a text. -/
def readNumber (s : Str) : Option Number :=
  let neg := (splitSign s).1
  let body := (splitSign s).2
  if body.map F64.lower = str! "nan" then some .nan
  else if body.map F64.lower = str! "inf" ∨ body.map F64.lower = str! "infinity" then some (.inf neg)
  else (readMag body).map fun v => .fin (if neg then -v else v)

theorem splitSign_signed (s : Str) : Negated s (splitSign s).1 (splitSign s).2 := by
  unfold splitSign
  split
  · exact .minus
  · exact .plus
  · exact .none

theorem signed_split {s t : Str} {neg : Bool} (h : Negated s neg t) (ht : ∀ c, t.head? = some c → c ≠ '-' ∧ c ≠ '+') :
    splitSign s = (neg, t) := by
  cases h with
  | plus => rfl
  | minus => rfl
  | none =>
    unfold splitSign
    split
    · exact absurd rfl (ht '-' rfl).1
    · exact absurd rfl (ht '+' rfl).2
    · rfl

theorem Spec.Mantissa.head {s : Str} {v : ℚ} (h : Mantissa s v) : ∃ c t, s = c :: t ∧ (isDig c = true ∨ c = '.') := by
  cases h with
  | whole h =>
    obtain ⟨h1, h2, _⟩ := decimal_all h
    cases s with
    | nil => exact absurd rfl h1
    | cons c t => exact ⟨c, t, rfl, .inl (h2 c (List.mem_cons_self ..))⟩
  | @point i f d h =>
    obtain ⟨_, h2, _⟩ := decimal_all h
    cases i with
    | nil => exact ⟨'.', f, rfl, .inr rfl⟩
    | cons c i => exact ⟨c, _, rfl, .inl (h2 c (by simp))⟩

theorem Spec.Magnitude.head {s : Str} {v : ℚ} (h : Magnitude s v) : ∃ c t, s = c :: t ∧ (isDig c = true ∨ c = '.') := by
  cases h with
  | plain h => exact h.head
  | scaled h _ _ =>
    obtain ⟨c, t, rfl, hc⟩ := h.head
    exact ⟨c, _, rfl, hc⟩

theorem readNumber_iff (s : Str) (n : Number) : readNumber s = some n ↔ NumberText s n := by
  constructor
  · intro h
    have hs := splitSign_signed s
    unfold readNumber at h
    dsimp only at h
    generalize (splitSign s).1 = neg at *
    generalize (splitSign s).2 = body at *
    split at h
    · cases h; exact .nan hs ((nan_iff _).1 ‹_›)
    · split at h
      · cases h
        rename_i hw
        rcases hw with hw | hw
        · exact .inf hs ((inf_iff _).1 hw)
        · exact .infinity hs ((infinity_iff _).1 hw)
      · obtain ⟨v, hv, rfl⟩ := Option.map_eq_some_iff.1 h
        exact .decimal hs ((readMag_iff _ _).1 hv)
  · intro h
    unfold readNumber
    cases h with
    | @decimal neg t v hs h =>
      obtain ⟨c, t', rfl, hc⟩ := h.head
      have hp : c ≠ '-' ∧ c ≠ '+' ∧ F64.lower c ≠ 'n' ∧ F64.lower c ≠ 'i' := by
        rw [F64.lower_digit hc]
        rcases hc with hc | rfl
        · refine ⟨?_, ?_, ?_, ?_⟩ <;> (rintro rfl; revert hc; decide)
        · decide
      rw [signed_split hs (by rintro _ ⟨⟩; exact ⟨hp.1, hp.2.1⟩)]
      simp only [List.map_cons, List.cons.injEq, hp.2.2.1, hp.2.2.2, false_and, or_self, if_false,
        (readMag_iff _ _).2 h, Option.map_some]
    | @inf neg t hs h =>
      have hw := (inf_iff _).2 h
      rw [signed_split hs (by
        intro c hc
        cases h with
        | cons h _ => cases hc; rcases h with rfl | rfl <;> decide)]
      simp only [hw, true_or, if_true]
      rw [if_neg (by decide)]
    | @infinity neg t hs h =>
      have hw := (infinity_iff _).2 h
      rw [signed_split hs (by
        intro c hc
        cases h with
        | cons h _ => cases hc; rcases h with rfl | rfl <;> decide)]
      simp only [hw, or_true, if_true]
      rw [if_neg (by decide)]
    | @nan neg t hs h =>
      have hw := (nan_iff _).2 h
      rw [signed_split hs (by
        intro c hc
        cases h with
        | cons h _ => cases hc; rcases h with rfl | rfl <;> decide)]
      simp only [hw, if_true]

/-- A text means one number at most. -/
theorem Spec.NumberText.unique {s : Str} {n n' : Number} (h : NumberText s n) (h' : NumberText s n') : n = n' := by
  rw [← readNumber_iff] at h h'
  rw [h] at h'
  exact Option.some.inj h'

/-! ## Rounding -/

theorem bits53_iff (x : ℚ) : Bits53 x ↔ IsF64 x := by
  unfold Bits53 IsF64
  simp only [pow2_eq]

theorem rne_tie {q : ℚ} (h : |q - rne q| = 1 / 2) : rne q % 2 = 0 := by
  have h1 : ((q.floor : Int) : ℚ) ≤ q := Rat.floor_le q
  have h2 : q < (q.floor : Int) + 1 := by have := Rat.lt_floor_add_one q; push_cast at this; exact this
  unfold rne at h ⊢
  dsimp only at h ⊢
  split at h
  · rename_i c
    rw [abs_of_nonneg (by linarith)] at h
    linarith
  · rename_i c
    rw [if_neg c]
    split at h
    · rename_i c2
      push_cast at h
      rw [abs_of_nonpos (by linarith)] at h
      linarith
    · rename_i c2
      rw [if_neg c2]
      split
      · assumption
      · omega

/-- A number of 53 bits as near as the rounded one is a multiple of the same power of two. -/
theorem tie_multiple {v b : ℚ} (hv : v ≠ 0) (hb : IsF64 b) (h : |v - round64 v| = |v - b|) :
    ∃ z : Int, b = z * pow2 (ulpExp v) := by
  obtain ⟨m, e, hm, he, rfl⟩ := hb
  by_cases hle : ulpExp v ≤ e
  · obtain ⟨k, hk⟩ := Int.le.dest hle
    refine ⟨m * 2 ^ k, ?_⟩
    rw [← hk, pow2_add, pow2_nat]; push_cast; ring
  · have hu : ulpExp v = expo v - 52 := by unfold ulpExp at *; omega
    have h1 := (expo_spec hv).1
    have e3 : pow2 (expo v) = (2 ^ 52 : Int) * pow2 (ulpExp v) := by
      have : expo v = 52 + ulpExp v := by omega
      rw [this, pow2_add]
      norm_num [pow2]
    have h2 : |(m : ℚ) * pow2 e| ≤ pow2 (expo v) := by
      have a1 : |(m : ℚ)| ≤ 2 ^ 53 := by exact_mod_cast hm
      have a2 : (2 : ℚ) ^ 53 * pow2 e = pow2 (53 + e) := by
        rw [pow2_add]; norm_num [pow2]
      rw [abs_mul, abs_of_pos (pow2_pos e)]
      have a3 := mul_le_mul_of_nonneg_right a1 (le_of_lt (pow2_pos e))
      rw [a2] at a3
      exact le_trans a3 (pow2_mono (by omega))
    have hf : IsF64 (pow2 (expo v)) := ⟨2 ^ 52, ulpExp v, by norm_num, by unfold ulpExp; omega, e3⟩
    have h3 : |v - round64 v| ≤ |v| - pow2 (expo v) := by
      rcases lt_or_gt_of_ne hv with hn | hp
      · have := round64_nearest v (isF64_neg hf)
        rw [abs_of_neg hn] at h1 ⊢
        rw [abs_of_nonpos (by linarith : v - -pow2 (expo v) ≤ 0)] at this
        linarith
      · have := round64_nearest v hf
        rw [abs_of_pos hp] at h1 ⊢
        rw [abs_of_nonneg (by linarith : 0 ≤ v - pow2 (expo v))] at this
        linarith
    have h4 := abs_sub_abs_le_abs_sub v ((m : ℚ) * pow2 e)
    have h5 : |(m : ℚ) * pow2 e| = pow2 (expo v) := le_antisymm h2 (by linarith)
    rcases abs_cases ((m : ℚ) * pow2 e) with ⟨c, _⟩ | ⟨c, _⟩
    · exact ⟨2 ^ 52, by rw [← e3, ← h5, c]⟩
    · refine ⟨-2 ^ 52, ?_⟩
      have : (m : ℚ) * pow2 e = -pow2 (expo v) := by linarith
      rw [this, e3]; push_cast; ring

theorem nearest_round64 (v : ℚ) : NearestTo v (round64 v) where
  bits := (bits53_iff _).2 (round64_isF64 v)
  near b hb := round64_nearest v ((bits53_iff _).1 hb)
  even b hb hne h := by
    have hv : v ≠ 0 := by
      rintro rfl
      rw [round64_zero] at h hne
      simp only [sub_self, abs_zero, zero_sub, abs_neg] at h
      exact hne (abs_eq_zero.1 h.symm)
    obtain ⟨z, hz⟩ := tie_multiple hv ((bits53_iff _).1 hb) h
    have hp := pow2_pos (ulpExp v)
    have hr : round64 v = rne (v / pow2 (ulpExp v)) * pow2 (ulpExp v) := rfl
    generalize pow2 (ulpExp v) = p at *
    have hk := rne_half (v / p)
    have ht := rne_tie (q := v / p)
    generalize rne (v / p) = k at *
    have key : ∀ w : ℚ, |v - w * p| = |v / p - w| * p := by
      intro w
      rw [← abs_of_pos hp, ← abs_mul, abs_of_pos hp]
      congr 1
      field_simp
    subst hz
    rw [hr] at h hne ⊢
    rw [key, key] at h
    have h2 : |v / p - k| = |v / p - z| := mul_right_cancel₀ (ne_of_gt hp) h
    have hkz : k ≠ z := by rintro rfl; exact hne rfl
    have h3 : (1 : ℚ) ≤ |(k : ℚ) - z| := by
      have : (1 : Int) ≤ |k - z| := Int.one_le_abs (by omega)
      exact_mod_cast this
    have h4 : |(k : ℚ) - z| ≤ |(k : ℚ) - v / p| + |v / p - z| := abs_sub_le _ _ _
    rw [abs_sub_comm (k : ℚ) (v / p), ← h2] at h4
    have h5 : |v / p - k| = 1 / 2 := by linarith
    have h6 : |(k : ℚ) - z| = 1 := by linarith
    obtain ⟨j, hj⟩ : ∃ j, k = 2 * j := ⟨k / 2, by have := ht h5; omega⟩
    refine ⟨j, ?_⟩
    have h7 : |(k : ℚ) * p - z * p| = p := by rw [← sub_mul, abs_mul, h6, abs_of_pos hp, one_mul]
    rw [h7, hj]; push_cast; ring

theorem Spec.NearestTo.unique {v r s : ℚ} (hr : NearestTo v r) (hs : NearestTo v s) : r = s := by
  by_contra hne
  have e : |v - r| = |v - s| := le_antisymm (hr.near s hs.bits) (hs.near r hr.bits)
  obtain ⟨k, hk⟩ := hr.even s hs.bits (Ne.symm hne) e
  obtain ⟨j, hj⟩ := hs.even r hr.bits hne e.symm
  rw [abs_sub_comm s r] at hj
  have hd : 0 < |r - s| := abs_pos.2 (sub_ne_zero.2 hne)
  generalize hg : |r - s| = g at *
  have h1 : |2 * ((k : ℚ) - j)| * g = g := by
    rw [← abs_of_pos hd, ← abs_mul, abs_of_pos hd]
    refine Eq.trans ?_ hg
    congr 1
    rw [hk, hj]; ring
  have h2 : |2 * ((k : ℚ) - j)| = 1 := mul_right_cancel₀ (ne_of_gt hd) (h1.trans (one_mul g).symm)
  have h3 : |2 * (k - j)| = 1 := by exact_mod_cast h2
  rcases abs_cases (2 * (k - j)) with ⟨c, _⟩ | ⟨c, _⟩ <;> rw [c] at h3 <;> omega

theorem of_within {v : ℚ} (h : |(Fl.of v).val| < pow2 1024) : F64.of v = .fin (Fl.of v) h := dif_pos h

theorem of_beyond {v : ℚ} (h : ¬ |(Fl.of v).val| < pow2 1024) : F64.of v = .inf (decide (v < 0)) := dif_neg h

theorem val_of (v : ℚ) : (Fl.of v).val = round64 v := rfl

theorem held_near : ∀ n : Number, Held n n.near
  | .nan => .nan
  | .inf _ => .inf
  | .fin v => by
    have e2 : pow2 1024 = (2 : ℚ) ^ 1024 := by rw [pow2_eq]; rfl
    show Held (.fin v) (F64.of v)
    by_cases hb : |(Fl.of v).val| < pow2 1024
    · rw [of_within hb]
      exact .fin (by rw [val_of]; exact nearest_round64 v)
    · rw [of_beyond hb]
      rw [val_of, not_lt, e2] at hb
      exact .over (nearest_round64 v) hb

theorem held_unique {n : Number} {x : F64} (h : Held n x) : x = n.near := by
  have e2 : pow2 1024 = (2 : ℚ) ^ 1024 := by rw [pow2_eq]; rfl
  cases h with
  | nan => rfl
  | inf => rfl
  | @fin v a hb h => exact (F64.of_fin ((nearest_round64 v).unique h) hb).symm
  | @over v r h hr =>
    rw [← e2, ← (nearest_round64 v).unique h, ← val_of] at hr
    exact (of_beyond (not_lt.2 hr)).symm

theorem held_iff (n : Number) (x : F64) : Held n x ↔ x = n.near :=
  ⟨held_unique, by rintro rfl; exact held_near n⟩

theorem ofStr_readNumber (s : Str) : (Flt.ofStr s : Option F64) = (readNumber s).map Number.near := by
  show F64.ofStr s = _
  unfold F64.ofStr readNumber
  dsimp only
  split
  · rfl
  · split
    · rfl
    · cases readMag (splitSign s).2 <;> rfl

end Verif

import Verif.Model.Bytes
import Verif.Props.C85
import Verif.Props.C68
/-!
# C117: files as bytes

The other theorems take files as texts.  Here files hold bytes, and every behaviour of the byte
files is one of the text files.
-/

namespace Verif
open Flt Files Spec Res

variable {F : Type} [Flt F]

/-- Bytes as texts: what cannot be opened or is not UTF-8 cannot be read. -/
def Spec.diskTexts (d : ByteDisk) : Disk := ⟨fun p => (d.bytes p).bind decode⟩

theorem Spec.toByteArray_inj {a b : List UInt8} (h : a.toByteArray = b.toByteArray) : a = b := by
  have := congrArg (fun x : ByteArray => x.data.toList) h
  simpa using this

/-- Bytes stand for a text exactly if they are its encoding. -/
theorem C117_decode (b : List UInt8) (s : Str) : decode b = some s ↔ b = encode s := by
  unfold decode encode
  constructor
  · intro h
    obtain ⟨a, h1, h2⟩ := Option.map_eq_some_iff.1 h
    obtain ⟨l, hl⟩ := ByteArray.isSome_utf8Decode?_iff.1 (by rw [h1]; rfl : b.toByteArray.utf8Decode?.isSome = true)
    rw [hl, List.utf8Decode?_utf8Encode] at h1
    cases h1
    cases h2
    exact toByteArray_inj hl
  · rintro rfl
    have := List.utf8Decode?_utf8Encode (l := s)
    unfold List.utf8Encode at this
    rw [this]
    simp

/-- Different texts are different files. -/
theorem C117_injective (s t : Str) (h : encode s = encode t) : s = t :=
  Option.some.inj (((C117_decode _ s).2 rfl).symm.trans ((C117_decode _ t).2 h))

/-! ## Byte files behave like text files -/

/-- Reading. -/
theorem C117_read (d : ByteDisk) (name : Str) : readBytes d name = readFile (diskTexts d) name := by
  simp only [readBytes, readFile, diskTexts]
  cases d.bytes name with
  | none => rfl
  | some b => cases h : decode b <;> simp [h]

theorem Spec.texts_set (d : ByteDisk) (name : Str) (b : List UInt8) : diskTexts (d.set name b) = (diskTexts d).set name (decode b) := by
  simp only [diskTexts, ByteDisk.set, Disk.set, Disk.mk.injEq]
  funext p
  split <;> rfl

theorem Spec.encode_append (s t : Str) : encode (s ++ t) = encode s ++ encode t := List.flatMap_append

/-- Texts whose bytes begin those of another text begin that text. -/
theorem Spec.encode_prefix {t s : Str} (h : encode t <+: encode s) : t <+: s := by
  obtain ⟨r, hr⟩ := h
  refine List.isPrefix_of_utf8Encode_append_eq_utf8Encode r.toByteArray ?_
  unfold List.utf8Encode
  rw [← List.toByteArray_append]
  exact congrArg List.toByteArray hr

/-- A part of a file from the beginning: whole characters, or not readable. -/
theorem C117_cut (s : Str) (n : Nat) :
    (∃ k, k ≤ s.length ∧ encode (s.take k) = (encode s).take n ∧ decode ((encode s).take n) = some (s.take k)) ∨
    ((∀ k, encode (s.take k) ≠ (encode s).take n) ∧ decode ((encode s).take n) = none) := by
  cases h : decode ((encode s).take n) with
  | none =>
    refine .inr ⟨fun k hk => ?_, rfl⟩
    rw [(C117_decode _ _).2 hk.symm] at h
    cases h
  | some t =>
    have e := (C117_decode _ _).1 h
    have hp : t <+: s := encode_prefix (e ▸ List.take_prefix n (encode s))
    refine .inl ⟨t.length, hp.length_le, ?_, ?_⟩
    · rw [← List.prefix_iff_eq_take.1 hp, e]
    · rw [← List.prefix_iff_eq_take.1 hp]

/-- Writing: the byte files do what the text files do under some fate. The fate is the same except
that a cut after `n` bytes is one after `k` characters, or inside a character if the bytes up to there
are not those of whole characters. -/
theorem C117_write (fate : ByteFate) (d : ByteDisk) (name data : Str) :
    ∃ fate', (writeBytes fate d name data).1 = (writeFile fate' (diskTexts d) name data).1 ∧
      diskTexts (writeBytes fate d name data).2 = (writeFile fate' (diskTexts d) name data).2 ∧
      (match fate, fate' with
        | .refused, .refused => True
        | .done, .done => True
        | .cut n, .cut k inside => k ≤ data.length ∧ encode (data.take k) <+: (encode data).take n ∧
            (inside = false ↔ encode (data.take k) = (encode data).take n)
        | _, _ => False) := by
  cases fate with
  | refused => exact ⟨.refused, rfl, rfl, trivial⟩
  | done =>
    refine ⟨.done, rfl, ?_, trivial⟩
    simp only [writeBytes, writeFile, texts_set, (C117_decode (encode data) data).2 rfl]
  | cut n =>
    rcases C117_cut data n with ⟨k, h1, h2, h3⟩ | ⟨h1, h2⟩
    · refine ⟨.cut k false, rfl, ?_, h1, h2 ▸ List.prefix_refl _, by simp [h2]⟩
      simp only [writeBytes, writeFile, texts_set, h3, Bool.false_eq_true, if_false]
    · refine ⟨.cut 0 true, rfl, ?_, Nat.zero_le _, List.nil_prefix, ?_⟩
      · simp only [writeBytes, writeFile, texts_set, h2, if_true]
      · simp only [Bool.true_eq_false, false_iff]
        exact h1 0

/-- Conversely every fate of the text files is possible for the byte files; a cut inside a character
needs a character of more than one byte there. -/
theorem C117_fates (fate' : Fate) (d : ByteDisk) (name data : Str)
    (h : ∀ k, fate' = .cut k true → ∃ c, data[k]? = some c ∧ 1 < (encode [c]).length) :
    ∃ fate, (writeBytes fate d name data).1 = (writeFile fate' (diskTexts d) name data).1 ∧
      diskTexts (writeBytes fate d name data).2 = (writeFile fate' (diskTexts d) name data).2 := by
  cases fate' with
  | refused => exact ⟨.refused, rfl, rfl⟩
  | done =>
    refine ⟨.done, rfl, ?_⟩
    simp only [writeBytes, writeFile, texts_set, (C117_decode (encode data) data).2 rfl]
  | cut k inside =>
    have split : ∀ k, encode data = encode (data.take k) ++ encode (data.drop k) := fun k => by
      rw [← encode_append, List.take_append_drop]
    cases inside with
    | false =>
      refine ⟨.cut (encode (data.take k)).length, rfl, ?_⟩
      have : (encode data).take (encode (data.take k)).length = encode (data.take k) := by
        rw [split k, List.take_left]
      simp only [writeBytes, writeFile, texts_set, this, (C117_decode _ (data.take k)).2 rfl, Bool.false_eq_true, if_false]
    | true =>
      obtain ⟨c, hc, hl⟩ := h k rfl
      refine ⟨.cut ((encode (data.take k)).length + 1), rfl, ?_⟩
      rcases C117_cut data ((encode (data.take k)).length + 1) with ⟨j, h1, h2, _⟩ | ⟨_, h2⟩
      · exfalso
        have hk : k < data.length := (List.getElem?_eq_some_iff.1 hc).1
        have hd : data.drop k = c :: data.drop (k + 1) := by
          rw [List.drop_eq_getElem_cons hk, (List.getElem?_eq_some_iff.1 hc).2]
        have hlen : (encode (data.take j)).length = (encode (data.take k)).length + 1 := by
          rw [h2, split k, hd, List.length_take]
          have : encode (c :: data.drop (k + 1)) = encode [c] ++ encode (data.drop (k + 1)) := encode_append [c] _
          rw [this]
          simp only [List.length_append]
          omega
        rcases Nat.lt_or_ge k j with hkj | hkj
        · have : data.take j = data.take k ++ c :: (data.drop (k + 1)).take (j - k - 1) := by
            conv_lhs => rw [← List.take_append_drop k data, hd]
            rw [List.take_append]
            have e1 : (data.take k).length = k := by rw [List.length_take]; omega
            rw [e1, List.take_take, Nat.min_eq_right (Nat.le_of_lt hkj)]
            obtain ⟨m, hm⟩ : ∃ m, j - k = m + 1 := ⟨j - k - 1, by omega⟩
            rw [hm, List.take_succ_cons]
            simp
          rw [this, encode_append] at hlen
          have : encode (c :: (data.drop (k + 1)).take (j - k - 1)) = encode [c] ++ encode ((data.drop (k + 1)).take (j - k - 1)) := encode_append [c] _
          rw [this] at hlen
          simp only [List.length_append] at hlen
          omega
        · have : data.take k = data.take j ++ (data.drop j).take (k - j) := by
            rw [← List.take_add, Nat.add_sub_cancel' hkj]
          rw [this, encode_append] at hlen
          simp only [List.length_append] at hlen
          omega
      · simp only [writeBytes, writeFile, texts_set, h2, if_true]

/-- Several writes one after another, to byte files. -/
def Spec.writeAllBytes (d : ByteDisk) (ws : List (ByteFate × Str × Str)) : ByteDisk :=
  ws.foldl (fun d w => (writeBytes w.1 d w.2.1 w.2.2).2) d

/-- The same to text files. -/
def Spec.writeAllTexts (d : Disk) (ws : List (Fate × Str × Str)) : Disk :=
  ws.foldl (fun d w => (writeFile w.1 d w.2.1 w.2.2).2) d

/-- Any number of writes: the same writes to text files, under some fates, leave the same to read. So
what holds of text files under all fates holds of byte files. -/
theorem C117_session (ws : List (ByteFate × Str × Str)) (d : ByteDisk) :
    ∃ ws', ws'.map Prod.snd = ws.map Prod.snd ∧ diskTexts (writeAllBytes d ws) = writeAllTexts (diskTexts d) ws' ∧
      ∀ name, readBytes (writeAllBytes d ws) name = readFile (writeAllTexts (diskTexts d) ws') name := by
  have key : ∃ ws', ws'.map Prod.snd = ws.map Prod.snd ∧ diskTexts (writeAllBytes d ws) = writeAllTexts (diskTexts d) ws' := by
    induction ws generalizing d with
    | nil => exact ⟨[], rfl, rfl⟩
    | cons w ws ih =>
      obtain ⟨f, n, t⟩ := w
      obtain ⟨fate', _, h2, _⟩ := C117_write f d n t
      obtain ⟨ws', h3, h4⟩ := ih (writeBytes f d n t).2
      refine ⟨(fate', n, t) :: ws', by simp [h3], ?_⟩
      rw [writeAllBytes, List.foldl_cons, writeAllTexts, List.foldl_cons, ← h2]
      exact h4
  obtain ⟨ws', h1, h2⟩ := key
  exact ⟨ws', h1, h2, fun name => by rw [C117_read, h2]⟩

/-! ## Which bytes -/

/-- A character is one byte below 128 or several bytes from 128 on. -/
theorem Spec.char_bytes (c : Char) :
    (∃ b, encode [c] = [b] ∧ b < 128 ∧ c.toNat = b.toNat) ∨
    (128 ≤ c.toNat ∧ 2 ≤ (encode [c]).length ∧ ∀ b ∈ encode [c], 128 ≤ b) := by
  have e : encode [c] = String.utf8EncodeChar c := by simp [encode]
  rw [e]
  unfold String.utf8EncodeChar
  simp only
  have lt : ∀ n, 128 ≤ n → n < 256 → (128 : UInt8) ≤ UInt8.ofNat n := by
    intro n h1 h2
    rw [UInt8.le_iff_toNat_le, UInt8.toNat_ofNat']
    simp only [UInt8.reduceToNat]
    omega
  split_ifs with h1 h2 h3
  · refine .inl ⟨_, rfl, ?_, ?_⟩
    · rw [UInt8.lt_iff_toNat_lt, UInt8.toNat_ofNat']
      simp only [UInt8.reduceToNat]
      omega
    · rw [UInt8.toNat_ofNat', Nat.mod_eq_of_lt (by omega)]
      rfl
  all_goals
    refine .inr ⟨Nat.lt_of_not_le h1, by simp, ?_⟩
    simp only [List.mem_cons, List.not_mem_nil, or_false]
    rintro b hb
    casesm* _ ∨ _ <;> subst b <;> exact lt _ (by omega) (by omega)

/-- In ASCII the bytes are the characters, so no cut is inside one: any part from the beginning can
be read. -/
theorem C117_ascii (s : Str) (h : ∀ c ∈ s, c.toNat < 128) :
    (encode s).map UInt8.toNat = s.map Char.toNat ∧ ∀ n, decode ((encode s).take n) = some (s.take n) := by
  have key : ∀ s : Str, (∀ c ∈ s, c.toNat < 128) → (encode s).map UInt8.toNat = s.map Char.toNat := by
    intro s
    induction s with
    | nil => intro _; rfl
    | cons c s ih =>
      intro h
      rw [List.forall_mem_cons] at h
      have e : encode (c :: s) = encode [c] ++ encode s := encode_append [c] s
      rw [e, List.map_append, ih h.2]
      rcases char_bytes c with ⟨b, h1, _, h3⟩ | ⟨h1, _⟩
      · simp [h1, h3]
      · exact absurd h.1 (Nat.not_lt.2 h1)
  refine ⟨key s h, fun n => (C117_decode _ _).2 ?_⟩
  have hm : ∀ c ∈ s.take n, c.toNat < 128 := fun c hc => h c (List.mem_of_mem_take hc)
  have : ((encode s).take n).map UInt8.toNat = (encode (s.take n)).map UInt8.toNat := by
    rw [List.map_take, key s h, key _ hm, List.map_take]
  exact List.map_injective_iff.2 (fun a b hab => UInt8.toNat_inj.1 hab) this

/-- A single byte from 128 on between bytes below 128 (or at an end of the file), as texts in Latin-1
and other one-byte encodings have them: the file cannot be read, whatever else is in it. -/
theorem C117_lone_byte (x y : List UInt8) (b : UInt8) (hb : 128 ≤ b) (hx : ∀ a, x.getLast? = some a → a < 128)
    (hy : ∀ a, y.head? = some a → a < 128) : decode (x ++ b :: y) = none := by
  cases h : decode (x ++ b :: y) with
  | none => rfl
  | some s =>
    exfalso
    have e := (C117_decode _ _).1 h
    clear h
    have nlt : ∀ a : UInt8, 128 ≤ a → ¬ a < 128 := fun a h1 h2 => absurd (UInt8.lt_of_le_of_lt h1 h2) (UInt8.lt_irrefl _)
    induction s generalizing x with
    | nil => simp [encode] at e
    | cons c s ih =>
      have e2 : encode (c :: s) = encode [c] ++ encode s := encode_append [c] s
      rw [e2] at e
      rcases List.append_eq_append_iff.1 e with ⟨z, h1, h2⟩ | ⟨z, h1, h2⟩
      · cases z with
        | nil => exact ih [] (by simp) h2
        | cons z0 z =>
          rw [List.cons_append, List.cons.injEq] at h2
          obtain ⟨rfl, rfl⟩ := h2
          rcases char_bytes c with ⟨a, h3, h4, _⟩ | ⟨_, h3, h4⟩
          · have : b ∈ [a] := by rw [← h3, h1]; simp
            rw [List.mem_singleton] at this
            exact nlt _ hb (this ▸ h4)
          · rw [h1] at h3 h4
            cases z with
            | nil =>
              rcases List.eq_nil_or_concat x with rfl | ⟨x', a, rfl⟩
              · simp at h3
              · exact nlt a (h4 a (by simp)) (hx a (by simp))
            | cons a z => exact nlt a (h4 a (by simp)) (hy a (by simp))
      · refine ih z (fun a ha => hx a ?_) h2.symm
        rw [h1, List.getLast?_append, ha]
        rfl

/-- A file that begins with a byte order mark is rejected by all readers. -/
theorem C117_byte_order_mark (name t : Str) (k : FileKind) : ∃ e, RejectsWith F name (Char.ofNat 0xFEFF :: t) e k := by
  by_cases hl : ∃ e, RejectsWith F name (Char.ofNat 0xFEFF :: t) e k
  · exact hl
  exfalso
  have hm := live_mark name (Char.ofNat 0xFEFF :: t) k hl
  cases hmk : mark k with
  | tree m =>
    rw [hmk] at hm
    obtain ⟨l', hl'⟩ := hm
    obtain ⟨w, s, hw, hs⟩ := starts_paren _ _ hl'
    have := not_blank_head w s hw (Char.ofNat 0xFEFF) (by rw [← hs]; rfl)
    revert this; decide
  | line x =>
    rw [hmk] at hm
    obtain ⟨a, rfl, ha⟩ := hm
    have := head_of_lines _ 'E' a ha
    simp at this
  | update =>
    rw [hmk] at hm
    have := Option.some.inj (show some (Char.ofNat 0xFEFF) = some 'u' from hm)
    revert this; decide

/-! ## Saving -/

/-- After writing a footprint, whatever the operating system did: if the file could not be created
nothing has changed; if not all bytes were written reading fails; otherwise the footprint is read. Other
files have not changed. -/
theorem C117_module [TextLaws F] [ZeroLaws F] (q : Str → Bool) (hq : QuotesWhenNeeded q) (fate : ByteFate) (d : ByteDisk) (name : Str)
    (m : Fp.Module F) (hm : GoodModule m) :
    let d' := (writeBytes fate d name (Fp.toText q 0 m)).2
    (match fate with
      | .refused => d' = d
      | .done => readModule (diskTexts d') name = .ok m
      | .cut n => if n < (encode (Fp.toText q 0 m)).length then ∃ e, (readModule (diskTexts d') name : Res (Fp.Module F)) = .err e
          else readModule (diskTexts d') name = .ok m) ∧
    ∀ p, p ≠ name → d'.bytes p = d.bytes p := by
  intro d'
  refine ⟨?_, ?_⟩
  · obtain ⟨fate', h1, h2, h3⟩ := C117_write fate d name (Fp.toText q 0 m)
    cases fate with
    | refused => rfl
    | done =>
      cases fate' <;> first | exact h3.elim | skip
      show readModule (diskTexts d') name = .ok m
      rw [h2]
      exact C55_module q hq .done (diskTexts d) _ name m hm rfl
    | cut n =>
      cases fate' with
      | cut k inside =>
        simp only at h3 ⊢
        obtain ⟨h4, h5, h6⟩ := h3
        have hw := C85_module_write q hq k inside (diskTexts d) name m hm
        have hd : diskTexts d' = (writeModule q (.cut k inside) (diskTexts d) m name).2 := h2
        rw [hd]
        split_ifs with hn
        · refine hw.2 ?_
          rintro ⟨rfl, hbl⟩
          have h6 := h6.1 rfl
          rcases Nat.lt_or_ge k (Fp.toText q 0 m).length with hk | hk
          · have ht := C68_text q 0 m
            have : ')' ∈ (Fp.toText q 0 m).drop k := by
              have hlast : (Fp.toText q 0 m).getLast? = some ')' := by
                rw [ht, List.getLast?_append]; rfl
              have : ((Fp.toText q 0 m).drop k).getLast? = some ')' := by
                rw [List.getLast?_drop, if_neg (by omega), hlast]
              exact List.mem_of_getLast? this
            have := hbl _ this
            revert this; decide
          · rw [List.take_of_length_le hk] at h6
            have := congrArg List.length h6
            rw [List.length_take] at this
            omega
        · have hall : (encode (Fp.toText q 0 m)).take n = encode (Fp.toText q 0 m) := List.take_of_length_le (by omega)
          rw [← hd]
          have : diskTexts d' = (writeModule q .done (diskTexts d) m name).2 := by
            simp only [d', writeBytes, hall, texts_set, writeModule, writeFile, (C117_decode _ (Fp.toText q 0 m)).2 rfl]
          rw [this]
          exact C55_module q hq .done (diskTexts d) _ name m hm rfl
      | _ => exact h3.elim
  · intro p hp
    cases fate <;> simp [d', writeBytes, ByteDisk.set, hp]

/-- Likewise for a board: never another board, whatever was written of it. -/
theorem C117_layout [TextLaws F] [ZeroLaws F] (q : Str → Bool) (hq : QuotesWhenNeeded q) (fate : ByteFate) (d : ByteDisk)
    (name : Str) (l : Lay.Layout F) (hl : SavableLayout l) (hc : CleanLayout l) :
    let d' := (writeBytes fate d name (Lay.toText q 0 l)).2
    (match fate with
      | .refused => d' = d
      | .done => readLayout (diskTexts d') name = .ok l
      | .cut n => readLayout (diskTexts d') name = .ok l ∧
            (∃ k, Blank ((Lay.toText q 0 l).drop k) ∧ encode ((Lay.toText q 0 l).take k) = (encode (Lay.toText q 0 l)).take n) ∨
          ∃ e, (readLayout (diskTexts d') name : Res (Lay.Layout F)) = .err e) ∧
    ∀ p, p ≠ name → d'.bytes p = d.bytes p := by
  intro d'
  refine ⟨?_, ?_⟩
  · obtain ⟨fate', h1, h2, h3⟩ := C117_write fate d name (Lay.toText q 0 l)
    cases fate with
    | refused => rfl
    | done =>
      cases fate' <;> first | exact h3.elim | skip
      show readLayout (diskTexts d') name = .ok l
      rw [h2]
      exact C55_layout q hq .done (diskTexts d) _ name l hl hc rfl
    | cut n =>
      cases fate' with
      | cut k inside =>
        simp only at h3 ⊢
        obtain ⟨h4, h5, h6⟩ := h3
        have hw := C85_layout_write q hq k inside (diskTexts d) name l hl hc
        have hd : diskTexts d' = (writeLayout q (.cut k inside) (diskTexts d) l name).2 := h2
        rw [hd]
        by_cases h : inside = false ∧ Blank ((Lay.toText q 0 l).drop k)
        · exact .inl ⟨hw.1 h, k, h.2, h6.1 h.1⟩
        · exact .inr (hw.2 h)
      | _ => exact h3.elim
  · intro p hp
    cases fate <;> simp [d', writeBytes, ByteDisk.set, hp]

/-! ## Cases -/

/-- The letter mu is two bytes; a file cut between them cannot be read. -/
example : encode (str! "5µ") = [53, 194, 181] ∧ decode ((encode (str! "5µ")).take 2) = none ∧
    decode ((encode (str! "5µ")).take 1) = some (str! "5") := by
  refine ⟨by decide, ?_, (C117_decode _ _).2 (by decide)⟩
  rcases C117_cut (str! "5µ") 2 with ⟨k, h1, h2, _⟩ | ⟨_, h⟩
  · exfalso
    have : k = 0 ∨ k = 1 ∨ k = 2 := by simp at h1; omega
    rcases this with rfl | rfl | rfl <;> revert h2 <;> decide
  · exact h

/-- The value `5µF` in Latin-1. -/
example : decode ([53] ++ 181 :: [70]) = none := C117_lone_byte [53] [70] 181 (by decide) (by simp) (by simp)

example : ∃ c, (str! "5µ")[1]? = some c ∧ 1 < (encode [c]).length := ⟨'µ', rfl, by decide⟩

example : GoodModule Spec.sampleModule ∧
    (encode (Fp.toText Fm.stdQuote 0 Spec.sampleModule)).length > 100 := ⟨Spec.sampleModule_good, by decide +kernel⟩

end Verif

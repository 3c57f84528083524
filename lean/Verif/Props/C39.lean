import Verif.Spec.Layout
/-!
# C39: replacing a hierarchical block in a net name
-/

namespace Verif
open Spec Lay

/-- A path as its parts: the parts separated by slashes. -/
def Spec.joinParts : List Str → Str
  | [] => []
  | p :: ps => p ++ ps.flatMap fun q => '/' :: q

/-- Specification of the replacement on the parts: a part that equals the block
and has a neighbour on both sides is replaced, unless its left neighbour has just
been replaced (the slash between them is used up). -/
def Spec.blockParts (block to : Str) : List Str → List Str
  | p :: q :: r :: rest =>
    if q = block then p :: to :: blockParts block to (r :: rest)
    else p :: blockParts block to (q :: r :: rest)
  | l => l

/-- A text without slashes. -/
abbrev Spec.Flat (s : Str) : Prop := '/' ∉ s

theorem Spec.blockParts_ne_nil (block to p : Str) (ps : List Str) :
    blockParts block to (p :: ps) ≠ [] := by
  match ps with
  | [] => simp [blockParts]
  | [q] => simp [blockParts]
  | q :: r :: rest => simp only [blockParts]; split <;> simp

theorem Lay.replaceAux_skip (pat rep a b : Str) :
    replaceAux pat rep a.length (a ++ b) = replaceAux pat rep 0 b := by
  induction a with
  | nil => rfl
  | cons c a ih => simpa [replaceAux] using ih

theorem Lay.replaceAux_flat (pat rep a b : Str) (h : Flat a) :
    replaceAux ('/' :: pat) rep 0 (a ++ b) = a ++ replaceAux ('/' :: pat) rep 0 b := by
  induction a with
  | nil => rfl
  | cons c a ih =>
    simp only [Flat, List.mem_cons, not_or] at h
    have : ('/' == c) = false := by simpa using h.1
    simp [replaceAux, List.isPrefixOf, this, ih h.2]

theorem Lay.prefix_part (block q : Str) (hb : Flat block) (hq : Flat q) (rest : List Str) :
    ((block ++ ['/']).isPrefixOf (q ++ rest.flatMap fun q => '/' :: q)) = true ↔
      q = block ∧ rest ≠ [] := by
  induction block generalizing q with
  | nil =>
    cases q with
    | nil => cases rest <;> simp [List.isPrefixOf]
    | cons c q =>
      simp only [Flat, List.mem_cons, not_or] at hq
      have : ('/' == c) = false := by simpa using hq.1
      simp [List.isPrefixOf, this]
  | cons d block ih =>
    simp only [Flat, List.mem_cons, not_or] at hb
    cases q with
    | nil =>
      cases rest with
      | nil => simp
      | cons r rest => simp [List.isPrefixOf, Ne.symm hb.1]
    | cons c q =>
      simp only [Flat, List.mem_cons, not_or] at hq
      have := ih q hb.2 hq.2
      by_cases hdc : d = c
      · subst hdc
        simp only [List.cons_append, List.isPrefixOf, beq_self_eq_true, Bool.true_and,
          List.cons.injEq, true_and]
        exact this
      · have h2 : (d == c) = false := by simpa using hdc
        simp [List.isPrefixOf, h2, Ne.symm hdc]

theorem Lay.replaceBlock_parts (block to p : Str) (hb : Flat block) (ps : List Str) (hp : Flat p)
    (hps : ∀ q ∈ ps, Flat q) :
    replaceBlock (joinParts (p :: ps)) block to = joinParts (blockParts block to (p :: ps)) := by
  induction h : ps.length using Nat.strongRecOn generalizing ps p with
  | _ n ih =>
  subst h
  have E : ∀ x, replaceBlock x block to =
      replaceAux ('/' :: (block ++ ['/'])) ('/' :: (to ++ ['/'])) 0 x := by
    intro x; simp [replaceBlock, replaceStr]
  simp only [E] at ih ⊢
  rw [joinParts, Lay.replaceAux_flat _ _ _ _ hp]
  match ps, hps with
  | [], _ => simp [replaceAux, blockParts, joinParts]
  | [q], hps =>
    have hq := hps q (by simp)
    have := Lay.prefix_part block q hb hq []
    simp only [List.flatMap_nil, List.append_nil, ne_eq, not_true, and_false, iff_false,
      Bool.not_eq_true] at this
    simp only [List.flatMap_cons, List.flatMap_nil, List.append_nil, replaceAux, List.isPrefixOf,
      beq_self_eq_true, Bool.true_and, this, Bool.false_eq_true, if_false, blockParts, joinParts]
    have := Lay.replaceAux_flat (block ++ ['/']) ('/' :: (to ++ ['/'])) q [] hq
    rw [List.append_nil] at this
    rw [this]
    simp [replaceAux]
  | q :: r :: rest, hps =>
    simp only [List.forall_mem_cons] at hps
    obtain ⟨hq, hr, hrest⟩ := hps
    have := Lay.prefix_part block q hb hq (r :: rest)
    simp only [List.flatMap_cons, List.cons_append, replaceAux, List.isPrefixOf,
      beq_self_eq_true, Bool.true_and] at *
    by_cases hqb : q = block
    · subst hqb
      rw [if_pos (by simp)]
      have hlen : ('/' :: (q ++ ['/'])).length - 1 = (q ++ ['/']).length := by simp
      have hsk := Lay.replaceAux_skip ('/' :: (q ++ ['/'])) ('/' :: (to ++ ['/'])) (q ++ ['/'])
        (r ++ rest.flatMap fun q => '/' :: q)
      simp only [List.append_assoc, List.cons_append, List.nil_append] at hsk
      have hi := ih rest.length (by simp; omega) r rest hr hrest rfl
      simp only [joinParts] at hi
      rw [hlen, hsk, hi]
      simp only [blockParts, if_true]
      cases hbp : blockParts q to (r :: rest) with
      | nil => exact absurd hbp (Spec.blockParts_ne_nil _ _ _ _)
      | cons x xs => simp [joinParts]
    · rw [if_neg (by simpa [hqb] using this)]
      have hi := ih (r :: rest).length (by simp) q (r :: rest) hq
        (by simp only [List.forall_mem_cons]; exact ⟨hr, hrest⟩) rfl
      simp only [joinParts, List.flatMap_cons, List.cons_append] at hi
      rw [hi]
      simp only [blockParts, hqb, if_false]
      cases hbp : blockParts block to (q :: r :: rest) with
      | nil => exact absurd hbp (Spec.blockParts_ne_nil _ _ _ _)
      | cons x xs => simp [joinParts]

/-- Every text is the join of flat parts. -/
theorem Spec.exists_parts (s : Str) : ∃ p ps, s = joinParts (p :: ps) ∧ Flat p ∧ ∀ q ∈ ps, Flat q := by
  induction s with
  | nil => exact ⟨[], [], rfl, by simp [Flat], by simp⟩
  | cons c s ih =>
    obtain ⟨p, ps, rfl, hp, hps⟩ := ih
    by_cases hc : c = '/'
    · subst hc
      refine ⟨[], p :: ps, by simp [joinParts], by simp [Flat], ?_⟩
      rw [List.forall_mem_cons]; exact ⟨hp, hps⟩
    · refine ⟨c :: p, ps, by simp [joinParts], ?_, hps⟩
      simp only [Flat, List.mem_cons, not_or]
      exact ⟨fun h => hc h.symm, hp⟩

/-- Exactly what `replace_block` does to a path, part by part (`block` itself has
no slash). -/
theorem C39_replace_parts (block to p : Str) (hb : Flat block) (ps : List Str) (hp : Flat p)
    (hps : ∀ q ∈ ps, Flat q) :
    replaceBlock (joinParts (p :: ps)) block to = joinParts (blockParts block to (p :: ps)) :=
  Lay.replaceBlock_parts block to p hb ps hp hps

example : joinParts [[], str! "a", str! "b", str! "net"] = str! "/a/b/net" ∧
    blockParts (str! "b") (str! "c") [[], str! "a", str! "b", str! "net"] =
      [[], str! "a", str! "c", str! "net"] := by decide

/-- A name that does not contain `/block/` is unchanged, whatever the texts. -/
theorem C39_absent_unchanged (name block to : Str)
    (h : ¬ (['/'] ++ block ++ ['/']) <:+: name) : replaceBlock name block to = name := by
  simp only [replaceBlock, replaceStr]
  generalize ['/'] ++ block ++ ['/'] = pat at h
  generalize ['/'] ++ to ++ ['/'] = rep
  induction name with
  | nil => rfl
  | cons c name ih =>
    rw [List.infix_cons_iff, not_or] at h
    have : pat.isPrefixOf (c :: name) = false := by
      rw [Bool.eq_false_iff]; simpa using h.1
    simp [replaceAux, this, ih h.2]

example : ¬ (['/'] ++ str! "x" ++ ['/']) <:+: str! "/a/x" := by
  simp [List.infix_cons_iff]

/-- Where the block occurs: it is one of the inner parts. -/
theorem Lay.infix_iff (block p : Str) (hb : Flat block) (ps : List Str) (hp : Flat p)
    (hps : ∀ q ∈ ps, Flat q) :
    (['/'] ++ block ++ ['/']) <:+: joinParts (p :: ps) ↔ block ∈ ps.dropLast := by
  have flat : ∀ (a b : Str), Flat a → (('/' :: (block ++ ['/'])) <:+: (a ++ b) ↔
      ('/' :: (block ++ ['/'])) <:+: b) := by
    intro a b ha
    induction a with
    | nil => simp
    | cons c a ih =>
      simp only [Flat, List.mem_cons, not_or] at ha
      rw [List.cons_append, List.infix_cons_iff, ih ha.2]
      simp [ha.1]
  simp only [List.cons_append, List.nil_append, joinParts]
  rw [flat _ _ hp]
  clear hp
  induction ps with
  | nil => simp
  | cons q ps ih =>
    rw [List.forall_mem_cons] at hps
    have h1 := Lay.prefix_part block q hb hps.1 ps
    rw [List.isPrefixOf_iff_prefix] at h1
    have h2 := ih hps.2
    rw [List.flatMap_cons, List.cons_append, List.infix_cons_iff, flat _ _ hps.1, propext h2,
      List.cons_prefix_cons]
    simp only [true_and, h1]
    cases ps with
    | nil => simp
    | cons r ps => simp [eq_comm]

/-- If the block does not occur twice in a row, every inner part that equals it
is replaced, all other parts are kept, and no `/block/` remains.  Missing from
the full statement: directly repeated blocks, for which it is false, see
`C39_repeated_block_remains`. -/
theorem C39_replaces_all_partial (block to p z : Str) (mid : List Str) (hb : Flat block)
    (hp : Flat p) (hz : Flat z) (hmid : ∀ q ∈ mid, Flat q)
    (hrep : ∀ a b, mid ≠ a ++ block :: block :: b) :
    replaceBlock (joinParts (p :: mid ++ [z])) block to =
      joinParts (p :: mid.map (fun q => if q = block then to else q) ++ [z]) ∧
    (Flat to → to ≠ block →
      ¬ (['/'] ++ block ++ ['/']) <:+: replaceBlock (joinParts (p :: mid ++ [z])) block to) := by
  have key : ∀ (n : Nat) (mid : List Str) (p : Str), mid.length = n →
      (∀ a b, mid ≠ a ++ block :: block :: b) →
      blockParts block to (p :: (mid ++ [z])) =
        p :: (mid.map (fun q => if q = block then to else q) ++ [z]) := by
    intro n
    induction n using Nat.strongRecOn with
    | _ n ih =>
    intro mid p hn hrep
    match mid with
    | [] => simp [blockParts]
    | [q] => by_cases hq : q = block <;> simp [blockParts, hq]
    | q :: r :: rest =>
      simp only [List.cons_append, blockParts]
      by_cases hq : q = block
      · have hr : r ≠ block := fun h => hrep [] rest (by simp [hq, h])
        rw [if_pos hq]
        have := ih rest.length (by simp at hn; omega) rest r rfl
          (fun a b h => hrep (q :: r :: a) b (by simp [h]))
        rw [this]
        simp [hq, hr]
      · rw [if_neg hq]
        have := ih (r :: rest).length (by simp at hn ⊢; omega) (r :: rest) q rfl
          (fun a b h => hrep (q :: a) b (by simp [h]))
        simp only [List.cons_append] at this
        rw [this]
        simp [hq]
  have hall : ∀ q ∈ mid ++ [z], Flat q := by
    intro q hq
    rcases List.mem_append.1 hq with h | h
    · exact hmid q h
    · rw [List.mem_singleton.1 h]; exact hz
  have e1 := Lay.replaceBlock_parts block to p hb (mid ++ [z]) hp hall
  rw [key _ mid p rfl hrep] at e1
  refine ⟨by simpa using e1, fun hto hne => ?_⟩
  have e2 : replaceBlock (joinParts (p :: mid ++ [z])) block to = _ := e1
  rw [e2, Lay.infix_iff block p hb _ hp]
  · simp only [List.dropLast_concat, List.mem_map, not_exists, not_and]
    intro q _ h
    split at h
    · exact hne h
    · contradiction
  · intro q hq
    rcases List.mem_append.1 hq with h | h
    · obtain ⟨r, hr, rfl⟩ := List.mem_map.1 h
      split
      · exact hto
      · exact hmid r hr
    · rw [List.mem_singleton.1 h]; exact hz

example : ∃ (mid : List Str), str! "b" ∈ mid ∧ (∀ q ∈ mid, Flat q) ∧
    (∀ a b, mid ≠ a ++ str! "b" :: str! "b" :: b) := by
  refine ⟨[str! "b", str! "x", str! "b"], by decide, by decide, ?_⟩
  intro a b h
  rcases a with _ | ⟨_, _ | ⟨_, _ | ⟨_, a⟩⟩⟩ <;> simp at h

/-- A block that is directly repeated is replaced only once: `/block/block/`
becomes `/to/block/`, which still contains `/block/`. -/
theorem C39_repeated_block_remains (block to : Str) (hb : Flat block) :
    replaceBlock (['/'] ++ block ++ ['/'] ++ block ++ ['/']) block to =
      ['/'] ++ to ++ ['/'] ++ block ++ ['/'] ∧
    (['/'] ++ block ++ ['/']) <:+:
      replaceBlock (['/'] ++ block ++ ['/'] ++ block ++ ['/']) block to := by
  have h := Lay.replaceBlock_parts block to [] hb [block, block, []] (by simp [Flat])
    (by simp [Flat]; exact hb)
  simp only [joinParts, blockParts, List.flatMap_cons, List.flatMap_nil, if_true, List.nil_append,
    List.append_nil, List.cons_append] at h
  have h1 : replaceBlock (['/'] ++ block ++ ['/'] ++ block ++ ['/']) block to =
      ['/'] ++ to ++ ['/'] ++ block ++ ['/'] := by simpa using h
  refine ⟨h1, ?_⟩
  rw [h1]
  exact ⟨['/'] ++ to, [], by simp⟩

end Verif

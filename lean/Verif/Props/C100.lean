import Mathlib.Logic.ExistsUnique
import Verif.Spec.Uri
/-!
# C100: what the address of a library expands to
-/

namespace Verif
open Tbl Spec

/-- Dividing an address. -/
def Uri.divide (word : Char → Bool) : Nat → Str → List UriPart
  | 0, _ => []
  | _ + 1, [] => []
  | n + 1, c :: s =>
    if c ≠ '$' then .text c :: divide word n s
    else match s with
      | [] => [.lone]
      | d :: r =>
        if d = '{' then
          match cutBrace r with
          | some (name, after) => .braced name :: divide word n after
          | none => .opened :: divide word n r
        else if word d then .bare (d :: r.takeWhile word) :: divide word n (r.dropWhile word)
        else if d = '$' then .double :: divide word n r
        else .lone :: divide word n (d :: r)

theorem Uri.cutBrace_some (s a b : Str) : cutBrace s = some (a, b) ↔ '}' ∉ a ∧ s = a ++ '}' :: b := by
  induction s generalizing a with
  | nil => simp [cutBrace]
  | cons c s ih =>
    rw [cutBrace]
    by_cases hc : c = '}'
    · subst hc
      rw [if_pos rfl]
      cases a with
      | nil => simp [eq_comm]
      | cons d a => simp; intro h h' h''; exact absurd h'' h
    · rw [if_neg hc]
      cases a with
      | nil => simp [hc]
      | cons d a =>
        simp only [Option.map_eq_some_iff, Prod.mk.injEq, List.cons.injEq, List.cons_append, List.mem_cons, not_or]
        constructor
        · rintro ⟨⟨a', b'⟩, h, ⟨rfl, rfl⟩, rfl⟩
          have := (ih a').1 h
          exact ⟨⟨fun h => hc h.symm, this.1⟩, rfl, this.2⟩
        · rintro ⟨⟨h1, h2⟩, rfl, h3⟩
          exact ⟨(a, b), (ih a).2 ⟨h2, h3⟩, ⟨rfl, rfl⟩, rfl⟩

theorem Uri.cutBrace_none (s : Str) : cutBrace s = none ↔ '}' ∉ s := by
  induction s with
  | nil => simp [cutBrace]
  | cons c s ih =>
    rw [cutBrace]
    by_cases hc : c = '}'
    · simp [hc]
    · have : ¬ '}' = c := fun h => hc h.symm
      simp [hc, ih, this]

theorem Uri.head_dropWhile (word : Char → Bool) (s : Str) (c : Char) (h : (s.dropWhile word).head? = some c) :
    word c = false := by
  induction s with
  | nil => simp at h
  | cons d s ih =>
    rw [List.dropWhile_cons] at h
    by_cases hd : word d = true
    · rw [if_pos hd] at h; exact ih h
    · rw [if_neg hd] at h; cases h; simpa using hd

theorem Uri.mem_takeWhile (word : Char → Bool) (s : Str) (c : Char) (h : c ∈ s.takeWhile word) : word c = true := by
  induction s with
  | nil => simp at h
  | cons d s ih =>
    rw [List.takeWhile_cons] at h
    by_cases hd : word d = true
    · rw [if_pos hd] at h
      rcases List.mem_cons.1 h with rfl | h
      · exact hd
      · exact ih h
    · rw [if_neg hd] at h; simp at h

theorem Uri.takeWhile_all (word : Char → Bool) (a b : Str) (h : ∀ c ∈ a, word c = true)
    (hb : ∀ c, b.head? = some c → word c = false) :
    (a ++ b).takeWhile word = a ∧ (a ++ b).dropWhile word = b := by
  induction a with
  | nil =>
    cases b with
    | nil => exact ⟨rfl, rfl⟩
    | cons c b =>
      have := hb c rfl
      simp [this]
  | cons d a ih =>
    have h1 := h d (by simp)
    have := ih fun c hc => h c (by simp [hc])
    simp [h1, this.1, this.2]

theorem Uri.divide_divides (word : Char → Bool) (n : Nat) (s : Str) (h : s.length ≤ n) : Divides word (divide word n s) s := by
  induction n generalizing s with
  | zero => cases s with
    | nil => exact .nil
    | cons => simp at h
  | succ n ih =>
    cases s with
    | nil => exact .nil
    | cons c s =>
      rw [List.length_cons] at h
      rw [divide.eq_def]; simp only
      by_cases hc : c ≠ '$'
      · rw [if_pos hc]; exact .text hc (ih s (by omega))
      · rw [if_neg hc]
        have hc : c = '$' := by simpa using hc
        subst hc
        cases s with
        | nil => exact .lone (s := []) (by simp) .nil
        | cons d r =>
          simp only
          rw [List.length_cons] at h
          by_cases h1 : d = '{'
          · subst h1
            rw [if_pos rfl]
            cases hb : cutBrace r with
            | none => exact .opened ((cutBrace_none r).1 hb) (ih r (by omega))
            | some p =>
              obtain ⟨name, after⟩ := p
              obtain ⟨h2, rfl⟩ := (cutBrace_some r name after).1 hb
              have := Divides.braced (word := word) h2 (ih after (by simp at h; omega))
              simpa using this
          · rw [if_neg h1]
            by_cases h2 : word d = true
            · rw [if_pos h2]
              have hlen : (r.dropWhile word).length ≤ r.length := (List.dropWhile_suffix word).length_le
              have := Divides.bare (word := word) (name := d :: r.takeWhile word) (s := r.dropWhile word) (by simp)
                (by
                  intro c hc
                  rcases List.mem_cons.1 hc with rfl | hc
                  · exact h2
                  · exact mem_takeWhile word r c hc)
                (fun c hc => head_dropWhile word r c hc)
                (ih _ (by omega))
              simpa using this
            · rw [if_neg h2]
              by_cases h3 : d = '$'
              · subst h3; rw [if_pos rfl]; exact .double (ih r (by omega))
              · rw [if_neg h3]
                exact .lone (s := d :: r) (by simp [h1, h3, h2]) (ih (d :: r) (by simp; omega))

theorem Uri.divide_of {word : Char → Bool} (hw : NameChars word) {ps : List UriPart} {s : Str}
    (h : Divides word ps s) : ∀ n, s.length ≤ n → divide word n s = ps := by
  induction h with
  | nil => intro n _; cases n <;> rfl
  | @text c ps s hc h ih =>
    rintro (_ | n) hn
    · simp at hn
    · rw [divide.eq_def]; simp only
      rw [if_pos hc, ih n (by simpa using hn)]
  | @braced name ps s hb h ih =>
    rintro (_ | n) hn
    · simp at hn
    · have e : str! "${" ++ name ++ str! "}" ++ s = '$' :: '{' :: (name ++ '}' :: s) := by simp
      rw [e] at hn ⊢
      rw [divide.eq_def]; simp only
      rw [if_neg (by simp), if_pos trivial, (cutBrace_some _ name s).2 ⟨hb, rfl⟩]
      simp only
      rw [ih n (by simp at hn; omega)]
  | @bare name ps s h0 ha hb h ih =>
    rintro (_ | n) hn
    · simp at hn
    · cases name with
      | nil => exact absurd rfl h0
      | cons d r =>
        have e : str! "$" ++ (d :: r) ++ s = '$' :: d :: (r ++ s) := by simp
        rw [e] at hn ⊢
        have hd := ha d (by simp)
        obtain ⟨e1, e2⟩ := takeWhile_all word r s (fun c hc => ha c (by simp [hc])) hb
        rw [divide.eq_def]; simp only
        rw [if_neg (by simp), if_neg (fun h => by rw [h, hw.2] at hd; cases hd), if_pos hd, e1, e2,
          ih n (by simp at hn; omega)]
  | @double ps s h ih =>
    rintro (_ | n) hn
    · simp at hn
    · have e : str! "$$" ++ s = '$' :: '$' :: s := by simp
      rw [e] at hn ⊢
      rw [divide.eq_def]; simp only
      rw [if_neg (by simp), if_neg (by decide), if_neg (by simp [hw.1]), if_pos trivial,
        ih n (by simp at hn; omega)]
  | @lone ps s hb h ih =>
    rintro (_ | n) hn
    · simp at hn
    · have e : str! "$" ++ s = '$' :: s := by simp
      rw [e] at hn ⊢
      have := ih n (by simpa using hn)
      rw [divide.eq_def]; simp only
      rw [if_neg (by simp)]
      cases s with
      | nil => cases n <;> simp_all [divide]
      | cons d r =>
        obtain ⟨h1, h2, h3⟩ := hb d rfl
        simp only
        rw [if_neg h2, if_neg (by simp [h1]), if_neg h3, this]
  | @opened ps s hb h ih =>
    rintro (_ | n) hn
    · simp at hn
    · have e : str! "${" ++ s = '$' :: '{' :: s := by simp
      rw [e] at hn ⊢
      rw [divide.eq_def]; simp only
      rw [if_neg (by simp), if_pos trivial, (cutBrace_none s).2 hb]
      simp only
      rw [ih n (by simp at hn; omega)]

/-- What the parts expand to: the name of the first variable that is not set, or the values. -/
def Uri.outcome (var : Str → Option Str) (ps : List UriPart) : Except Str Str :=
  match unset var ps with
  | [] => .ok (ps.flatMap (UriPart.value var))
  | n :: _ => .error n

theorem Uri.outcome_cons (var : Str → Option Str) (p : UriPart) (ps : List UriPart) :
    outcome var (p :: ps) =
      match p.var with
      | none => (outcome var ps).map (p.value var ++ ·)
      | some n => match var n with
        | some v => (outcome var ps).map (v ++ ·)
        | none => .error n := by
  have aux : ∀ v : Str, (∀ n, p.var = some n → (var n).isSome) → p.value var = v →
      outcome var (p :: ps) = (outcome var ps).map (v ++ ·) := by
    intro v h1 h2
    have hu : unset var (p :: ps) = unset var ps := by
      unfold unset
      cases hp : p.var with
      | none => rw [List.filterMap_cons_none hp]
      | some n =>
        rw [List.filterMap_cons_some hp, List.filter_cons_of_neg]
        have := h1 n hp
        rw [Option.isSome_iff_exists] at this
        obtain ⟨x, hx⟩ := this
        simp [hx]
    unfold outcome
    rw [hu]
    cases unset var ps with
    | nil => simp [Except.map, h2]
    | cons => rfl
  cases hp : p.var with
  | none => exact aux _ (by simp [hp]) rfl
  | some n =>
    simp only
    cases hv : var n with
    | some v =>
      refine aux v ?_ ?_
      · intro m hm; rw [hp] at hm; cases hm; simp [hv]
      · cases p <;> simp_all [UriPart.var, UriPart.value]
    | none =>
      unfold outcome unset
      rw [List.filterMap_cons_some hp, List.filter_cons_of_pos (by simp [hv])]

theorem Uri.expandGo_divide (sh : Shell) (n : Nat) (s : Str) :
    expandGo sh n s = outcome sh.var (divide sh.word n s) := by
  induction n generalizing s with
  | zero => rfl
  | succ n ih =>
    cases s with
    | nil => rfl
    | cons c s =>
      rw [expandGo.eq_def, divide.eq_def]
      simp only
      by_cases hc : c ≠ '$'
      · rw [if_pos hc, if_pos hc, outcome_cons, ih]; rfl
      · rw [if_neg hc, if_neg hc]
        cases s with
        | nil => rfl
        | cons d r =>
          simp only
          by_cases h1 : d = '{'
          · rw [if_pos h1, if_pos h1]
            cases cutBrace r with
            | none => simp only; rw [outcome_cons, ih]; rfl
            | some p =>
              simp only; rw [outcome_cons, ← ih]; rfl
          · rw [if_neg h1, if_neg h1]
            by_cases h2 : sh.word d = true
            · rw [if_pos h2, if_pos h2, outcome_cons, ← ih]; rfl
            · rw [if_neg h2, if_neg h2]
              by_cases h3 : d = '$'
              · rw [if_pos h3, if_pos h3, outcome_cons, ih]; rfl
              · rw [if_neg h3, if_neg h3, outcome_cons, ih]; rfl

theorem Uri.expandEnv_eq (sh : Shell) (hw : NameChars sh.word) (ps : List UriPart) (s : Str)
    (h : Divides sh.word ps s) : expandEnv sh s = outcome sh.var ps := by
  unfold expandEnv
  rw [expandGo_divide, divide_of hw h _ (Nat.le_refl _)]

theorem Uri.expandTilde_eq (sh : Shell) (s : Str) : expandTilde sh s = atHome sh.home s := by
  cases s with
  | nil => cases sh.home <;> simp [expandTilde, atHome]
  | cons c s =>
    by_cases hc : c = '~'
    · subst hc
      cases s with
      | nil => cases h : sh.home <;> simp [expandTilde, atHome, h]
      | cons d s =>
        by_cases hd : d = '/'
        · subst hd; cases h : sh.home <;> simp [expandTilde, atHome, h]
        · have : ¬ '/' = d := fun h => hd h.symm
          cases h : sh.home <;> simp [expandTilde, atHome, h, hd, this]
    · have : ¬ '~' = c := fun h => hc h.symm
      cases sh.home <;> simp [expandTilde, atHome, hc, this]

theorem Uri.plain (var : Str → Option Str) (word : Char → Bool) {s : Str} (h : '$' ∉ s) :
    Divides word (s.map .text) s ∧ unset var (s.map .text) = [] ∧
      (s.map UriPart.text).flatMap (UriPart.value var) = s := by
  induction s with
  | nil => exact ⟨.nil, rfl, rfl⟩
  | cons c s ih =>
    simp only [List.mem_cons, not_or] at h
    obtain ⟨h1, h2, h3⟩ := ih h.2
    exact ⟨.text (fun e => h.1 e.symm) h1, by simp [unset, UriPart.var], by simp [UriPart.value, h3]⟩

/-- Every address can be divided into parts in exactly one way. -/
theorem C100_divides (word : Char → Bool) (hw : NameChars word) (s : Str) : ∃! ps, Divides word ps s :=
  ⟨Uri.divide word s.length s, Uri.divide_divides word _ s (Nat.le_refl _),
   fun _ h => (Uri.divide_of hw h _ (Nat.le_refl _)).symm⟩

/-- If all variables that the address names are set, the expanded address is the address with each
part replaced by what it stands for; after that, if the address itself begins with `~`, the home
directory is put in its place. -/
theorem C100_value (sh : Shell) (hw : NameChars sh.word) (l : Lib) (ps : List UriPart)
    (h : Divides sh.word ps l.uri) (hu : unset sh.var ps = []) :
    l.getExpandedUri sh =
      .ok (if l.uri.head? = some '~' then atHome sh.home (ps.flatMap (UriPart.value sh.var))
           else ps.flatMap (UriPart.value sh.var)) := by
  have e : expandEnv sh l.uri = .ok (ps.flatMap (UriPart.value sh.var)) := by
    rw [Uri.expandEnv_eq sh hw ps _ h, Uri.outcome, hu]
  unfold Lib.getExpandedUri expandFull
  rw [e]
  simp only [Except.map, Uri.expandTilde_eq]
  by_cases h1 : l.uri.head? = some '~'
  · simp [h1]
  · rw [if_neg h1]
    generalize ps.flatMap (UriPart.value sh.var) = t
    by_cases h2 : t.head? = some '~'
    · simp [h1, h2]
    · simp only [h1, h2, not_false_eq_true, ne_eq, and_false, if_false]
      cases t with
      | nil => cases sh.home <;> simp [atHome]
      | cons c t =>
        have : ¬ '~' = c := by rintro rfl; exact h2 rfl
        have h' : ¬ c = '~' := fun h => this h.symm
        cases sh.home <;> simp [atHome, this, h']

/-- If a variable that the address names is not set, the call fails, and the error is about the
first such variable. -/
theorem C100_error (sh : Shell) (hw : NameChars sh.word) (l : Lib) (ps : List UriPart)
    (h : Divides sh.word ps l.uri) (n : Str) (hu : (unset sh.var ps).head? = some n) :
    l.getExpandedUri sh = .err ⟨.shellExpand, sh.told n⟩ := by
  have e : expandEnv sh l.uri = .error n := by
    rw [Uri.expandEnv_eq sh hw ps _ h, Uri.outcome]
    cases hx : unset sh.var ps with
    | nil => rw [hx] at hu; cases hu
    | cons a b => rw [hx] at hu; cases hu; rfl
  unfold Lib.getExpandedUri expandFull
  rw [e]; rfl

/-- The call succeeds exactly if every variable that the address names is set. -/
theorem C100_succeeds (sh : Shell) (hw : NameChars sh.word) (l : Lib) (ps : List UriPart)
    (h : Divides sh.word ps l.uri) :
    (∃ t, l.getExpandedUri sh = .ok t) ↔ ∀ p ∈ ps, ∀ n, p.var = some n → (sh.var n).isSome := by
  have key : unset sh.var ps = [] ↔ ∀ p ∈ ps, ∀ n, p.var = some n → (sh.var n).isSome := by
    unfold unset
    rw [List.filter_eq_nil_iff]
    simp only [List.mem_filterMap, forall_exists_index, and_imp]
    constructor
    · intro h p hp n hn
      have := h n p hp hn
      cases hv : sh.var n <;> simp_all
    · intro h n p hp hn
      have := h p hp n hn
      cases hv : sh.var n <;> simp_all
  rw [← key]
  constructor
  · rintro ⟨t, ht⟩
    cases hx : unset sh.var ps with
    | nil => rfl
    | cons a b => rw [C100_error sh hw l ps h a (by rw [hx]; rfl)] at ht; cases ht
  · intro hu; exact ⟨_, C100_value sh hw l ps h hu⟩

/-- An address without `$` and without a leading `~` is left as it is, in any environment. -/
theorem C100_plain (sh : Shell) (hw : NameChars sh.word) (l : Lib) (h1 : '$' ∉ l.uri)
    (h2 : l.uri.head? ≠ some '~') : l.getExpandedUri sh = .ok l.uri := by
  rw [C100_value sh hw l _ (Uri.plain sh.var _ h1).1 (Uri.plain sh.var sh.word h1).2.1, if_neg h2,
    (Uri.plain sh.var sh.word h1).2.2]

/-- Only the variables that the address names matter, and the home directory only if the address
begins with `~`. -/
theorem C100_depends (sh sh' : Shell) (hw : NameChars sh.word) (hs : sh'.word = sh.word)
    (ht : sh'.told = sh.told) (l : Lib) (ps : List UriPart) (h : Divides sh.word ps l.uri)
    (hv : ∀ p ∈ ps, ∀ n, p.var = some n → sh'.var n = sh.var n)
    (hh : l.uri.head? = some '~' → sh'.home = sh.home) :
    l.getExpandedUri sh' = l.getExpandedUri sh := by
  have hu : unset sh'.var ps = unset sh.var ps := by
    unfold unset
    refine List.filter_congr fun n hn => ?_
    obtain ⟨p, hp, hpn⟩ := List.mem_filterMap.1 hn
    rw [hv p hp n hpn]
  have hm : ps.flatMap (UriPart.value sh'.var) = ps.flatMap (UriPart.value sh.var) := by
    have : ∀ p ∈ ps, p.value sh'.var = p.value sh.var := by
      intro p hp
      have := hv p hp
      cases p with
      | braced n => simp only [UriPart.value, this n rfl]
      | bare n => simp only [UriPart.value, this n rfl]
      | _ => rfl
    rw [List.flatMap_def, List.flatMap_def, List.map_congr_left this]
  have hw' : NameChars sh'.word := by rw [hs]; exact hw
  have h' : Divides sh'.word ps l.uri := by rw [hs]; exact h
  cases hx : unset sh.var ps with
  | nil =>
    rw [C100_value sh hw l ps h hx, C100_value sh' hw' l ps h' (by rw [hu, hx]), hm]
    by_cases h1 : l.uri.head? = some '~'
    · rw [if_pos h1, if_pos h1, hh h1]
    · rw [if_neg h1, if_neg h1]
  | cons a b =>
    rw [C100_error sh hw l ps h a (by rw [hx]; rfl),
      C100_error sh' hw' l ps h' a (by rw [hu, hx]; rfl), ht]

/-- The usual address of a library: a variable, a slash, the name of the library.  The value of
the variable is not expanded again, whatever it contains. -/
theorem C100_usual (sh : Shell) (hw : NameChars sh.word) (l : Lib) (name v rest : Str)
    (hl : l.uri = str! "${" ++ name ++ str! "}" ++ rest) (hn : '}' ∉ name) (hr : '$' ∉ rest)
    (hv : sh.var name = some v) : l.getExpandedUri sh = .ok (v ++ rest) := by
  rw [C100_value sh hw l (.braced name :: rest.map .text) (hl ▸ .braced hn (Uri.plain sh.var _ hr).1) ?_, if_neg ?_]
  · rw [List.flatMap_cons, (Uri.plain sh.var sh.word hr).2.2]; simp [UriPart.value, hv]
  · rw [hl]; simp
  · have := (Uri.plain sh.var sh.word hr).2.1
    unfold unset at this ⊢
    rw [List.filterMap_cons_some (f := UriPart.var) (b := name) rfl, List.filter_cons_of_neg (by simp [hv])]
    exact this

/-- An address below the home directory. -/
theorem C100_home (sh : Shell) (hw : NameChars sh.word) (l : Lib) (rest home : Str)
    (hl : l.uri = str! "~/" ++ rest) (hr : '$' ∉ rest) (hh : sh.home = some home) :
    l.getExpandedUri sh = .ok (home ++ str! "/" ++ rest) := by
  have h1 : '$' ∉ l.uri := by rw [hl]; simp [hr]
  rw [C100_value sh hw l _ (Uri.plain sh.var _ h1).1 (Uri.plain sh.var sh.word h1).2.1, if_pos (by rw [hl]; simp),
    (Uri.plain sh.var sh.word h1).2.2, hl, hh]
  simp [atHome]

/-- Without a home directory, and for the home of somebody else (`~name`), the tilde stays. -/
theorem C100_tilde_stays (sh : Shell) (hw : NameChars sh.word) (l : Lib) (h : '$' ∉ l.uri)
    (hh : sh.home = none ∨ (l.uri ≠ str! "~" ∧ ¬ (str! "~/") <+: l.uri)) :
    l.getExpandedUri sh = .ok l.uri := by
  rw [C100_value sh hw l _ (Uri.plain sh.var _ h).1 (Uri.plain sh.var sh.word h).2.1,
    (Uri.plain sh.var sh.word h).2.2]
  have : atHome sh.home l.uri = l.uri := by
    rcases hh with hh | ⟨h1, h2⟩
    · simp [atHome, hh]
    · cases sh.home with
      | none => rfl
      | some home => simp only [atHome]; rw [if_neg h1, if_neg (by simpa using h2)]
  rw [this, ite_self]

/-- An environment with two variables, one of whose values looks like a variable. -/
def Spec.sampleShell : Shell :=
  ⟨fun n => if n = str! "KISYSMOD" then some (str! "/usr/share/kicad/modules")
            else if n = str! "ODD" then some (str! "~/$KISYSMOD") else none,
   some (str! "/home/me"), fun c => c.isAlphanum || c == '_', fun n => str! "no " ++ n⟩

theorem Spec.sampleShell_names : NameChars sampleShell.word := ⟨by decide, by decide⟩

/-- A library of that address. -/
def Spec.libAt (uri : Str) : Lib := ⟨str! "R", str! "KiCad", uri, [], []⟩

example : (libAt (str! "${KISYSMOD}/R.pretty")).getExpandedUri sampleShell =
    .ok (str! "/usr/share/kicad/modules/R.pretty") :=
  C100_usual _ sampleShell_names _ (str! "KISYSMOD") _ (str! "/R.pretty") rfl (by decide) (by decide) rfl

example : (libAt (str! "${ODD}$$$KISYSMOD/$")).getExpandedUri sampleShell =
    .ok (str! "~/$KISYSMOD$/usr/share/kicad/modules/$") := by decide +kernel

example : Divides sampleShell.word
    [.text 'a', .braced (str! "ODD"), .double, .bare (str! "KISYSMOD"), .text '/', .lone]
    (libAt (str! "a${ODD}$$$KISYSMOD/$")).uri :=
  .text (by decide) (.braced (by decide) (.double (.bare (by decide) (by decide) (by decide)
    (.text (by decide) (.lone (s := []) (by simp) .nil)))))

example : (libAt (str! "$KIPRJMOD/${OTHER}")).getExpandedUri sampleShell =
    .err ⟨.shellExpand, str! "no KIPRJMOD"⟩ := by decide +kernel

example : (libAt (str! "~/x")).getExpandedUri sampleShell = .ok (str! "/home/me/x") :=
  C100_home _ sampleShell_names _ (str! "x") _ rfl (by decide) rfl

end Verif

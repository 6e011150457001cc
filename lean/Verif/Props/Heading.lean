import Verif.Valid.HelpTexts
import Verif.Help.Static
import Verif.Props.Reference
import Verif.Props.Page

/-!
# C108 – the texts of a program on its help page
-/

namespace ArgRouter

namespace Spec

/-- What the reference asks of the texts of a program and of the settings of its formatter
(policy/program_name.hpp:22 and the like; policy/default_help_formatter.hpp:38, 235, 238). -/
structure TextRule (f : HelpFormat) : Prop where
  /-- the name: longer than one character, no whitespace -/
  name : ∀ n, f.name = some n → (∃ k, Characters n k ∧ 1 < k) ∧ NoBlanks n
  /-- the other texts: longer than one character -/
  version : ∀ v, f.version = some v → ∃ k, Characters v k ∧ 1 < k
  intro : ∀ i, f.intro = some i → ∃ k, Characters i k ∧ 1 < k
  addendum : ∀ a, f.addendum = some a → ∃ k, Characters a k ∧ 1 < k
  indent : 0 < f.indent
  offset : 0 < f.offset

/-- The first word of a text: what comes before the first space or newline. -/
def firstWord (text : Bytes) : Bytes := text.takeWhile fun c => c != 32 && c != 10

end Spec

namespace Props

open Utf8 Spec

theorem text_iff (t : Option Bytes) :
    textAsserts t = true ↔ ∀ x, t = some x → ∃ k, Characters x k ∧ 1 < k := by
  cases t with
  | none => simp [textAsserts]
  | some x => simp [textAsserts, countOk_iff]

theorem programName_iff (t : Option Bytes) : programNameAsserts t = true ↔
    ∀ x, t = some x → (∃ k, Characters x k ∧ 1 < k) ∧ NoBlanks x := by
  cases t with
  | none => simp [programNameAsserts]
  | some x => simp [programNameAsserts, countOk_iff, noWhitespace_iff]

/-- C108: a help node compiles exactly if its texts and the settings of its formatter are as the reference
says. -/
theorem C108_compiles (f : HelpFormat) : formatAsserts f = true ↔ TextRule f := by
  simp only [formatAsserts, Bool.and_eq_true, programName_iff, text_iff, decide_eq_true_eq]
  constructor
  · rintro ⟨⟨⟨⟨⟨h1, h2⟩, h3⟩, h4⟩, h5⟩, h6⟩
    exact ⟨h1, h2, h3, h4, h5, h6⟩
  · rintro ⟨h1, h2, h3, h4, h5, h6⟩
    exact ⟨⟨⟨⟨⟨h1, h2⟩, h3⟩, h4⟩, h5⟩, h6⟩

theorem generateHelp_parts {line : Nat → Nat → Nat → Nat × Bytes × Bytes → Out Bytes} {f : HelpFormat}
    {info : HelpInfo} {columns : Nat} {flatten : Bool} {target : Node} {out : Bytes}
    (h : generateHelp line f info columns flatten target = .ok out) :
    ∃ body, out = preamble f ++ body ++ addendumText f := by
  simp only [generateHelp, Out.bind_eq_ok, Out.pure_eq, Out.ok.injEq] at h
  obtain ⟨D, -, body, -, rfl⟩ := h
  exact ⟨body, rfl⟩

theorem firstWord_append {n rest : Bytes} {c : UInt8} (hn : ∀ x ∈ n, x ≠ 32 ∧ x ≠ 10)
    (hc : c = 32 ∨ c = 10) : firstWord (n ++ c :: rest) = n := by
  induction n with
  | nil => rcases hc with rfl | rfl <;> rfl
  | cons x n ih =>
    have hx := hn x List.mem_cons_self
    have := ih fun y hy => hn y (List.mem_cons_of_mem _ hy)
    unfold firstWord at this ⊢
    rw [List.cons_append, List.takeWhile_cons_of_pos (by simp [hx.1, hx.2]), this]

theorem ofNat_ne {n : Nat} {k : UInt8} (hn : n < 256) (h : n ≠ k.toNat) : UInt8.ofNat n ≠ k := by
  rintro rfl
  apply h
  simp
  omega

theorem enc_no_blank {cs : List Char} (h : ∀ c ∈ cs, isUnicodeWhitespace c = false) :
    ∀ x ∈ enc cs, x ≠ 32 ∧ x ≠ 10 := by
  intro x hx
  simp only [enc, List.mem_flatMap] at hx
  obtain ⟨c, hc, hx⟩ := hx
  have hw : c.toNat ≠ 32 ∧ c.toNat ≠ 10 := by
    have := h c hc
    simp only [isUnicodeWhitespace, Bool.or_eq_false_iff, Bool.and_eq_false_iff, decide_eq_false_iff_not,
      beq_eq_false_iff_ne] at this
    omega
  have key : ∀ n : Nat, n < 256 → n ≠ 32 → n ≠ 10 → UInt8.ofNat n ≠ 32 ∧ UInt8.ofNat n ≠ 10 :=
    fun n h1 h2 h3 => ⟨ofNat_ne h1 h2, ofNat_ne h1 h3⟩
  rcases encChar_cases c with ⟨h1, he⟩ | ⟨h1, h2, he⟩ | ⟨h1, h2, he⟩ | ⟨h1, h2, he⟩ <;>
    rw [he] at hx <;> simp only [List.mem_cons, List.not_mem_nil, or_false] at hx
  · subst hx; exact key _ (by omega) hw.1 hw.2
  · rcases hx with rfl | rfl <;> exact key _ (by omega) (by omega) (by omega)
  · rcases hx with rfl | rfl | rfl <;> exact key _ (by omega) (by omega) (by omega)
  · rcases hx with rfl | rfl | rfl | rfl <;> exact key _ (by omega) (by omega) (by omega)

theorem preamble_name {f : HelpFormat} {n : Bytes} (hn : f.name = some n) :
    ∃ c rest, (c = 32 ∨ c = 10) ∧ preamble f = n ++ c :: rest := by
  unfold preamble
  rw [hn]
  cases f.version with
  | none => exact ⟨10, _, .inr rfl, by simp only [List.append_nil, List.append_assoc]; rfl⟩
  | some v => exact ⟨32, _, .inl rfl, by simp only [List.append_assoc]; rfl⟩

/-- C108: the first word of every page of help, of any formatter that keeps the heading of the library, is the
name of the program. Missing from the full statement: names with characters from U+07C0 to U+07FF and from
U+F000 to U+FFFF (`C108_false`). -/
theorem C108_first_word_partial (line : Nat → Nat → Nat → Nat × Bytes × Bytes → Out Bytes) (f : HelpFormat)
    (info : HelpInfo) (columns : Nat) (flatten : Bool) (target : Node) (out : Bytes) (name : List Char)
    (hf : formatAsserts f = true) (hn : f.name = some (enc name)) (hp : Plain name)
    (h : generateHelp line f info columns flatten target = .ok out ∨
      generateHelpStatic line f info columns flatten target = .ok out) :
    firstWord out = enc name := by
  obtain ⟨body, rfl⟩ : ∃ body, out = preamble f ++ body ++ addendumText f := by
    rcases h with h | h
    · exact generateHelp_parts h
    · simp only [generateHelpStatic, Out.bind_eq_ok, Out.pure_eq, Out.ok.injEq] at h
      obtain ⟨D, -, body, -, rfl⟩ := h
      exact ⟨body, rfl⟩
  obtain ⟨c, rest, hc, he⟩ := preamble_name hn
  have hb := ((C108_compiles f).1 hf).name _ hn
  rw [he, List.append_assoc, List.append_assoc, List.cons_append]
  exact firstWord_append (enc_no_blank ((whitespace_iff hp).1 hb.2)) hc

/-- C108, programs: `root.help()` begins with the name given to the first help node. Missing from the full
statement: as above. -/
theorem C108_program_partial (fmt : Node → Formatter) (info : HelpInfo) (columns : Nat) (tree h : Node)
    (before after : List Node) (htree : tree.children = before ++ h :: after)
    (hfirst : ∀ c ∈ before, c.kind ≠ .help) (hk : h.kind = .help)
    (hf : formattersAssert fmt tree = true) (name : List Char)
    (hn : (fmt h).format.name = some (enc name)) (hp : Plain name) (out : Bytes)
    (ho : rootHelp fmt info columns tree = .ok out) : firstWord out = enc name := by
  have hfind : tree.children.find? (fun c => c.kind == .help) = some h := by
    rw [htree, List.find?_append, List.find?_eq_none.2 (by simpa using hfirst)]
    simp [hk]
  unfold rootHelp at ho
  rw [hfind] at ho
  refine C108_first_word_partial _ _ info columns _ tree out name ?_ hn hp (.inl ho)
  have hc : h ∈ tree.children := by rw [htree]; simp
  have hm : h ∈ tree.nodes := child_mem_nodes hc _ (self_mem_nodes h)
  have := List.all_eq_true.1 hf h hm
  simpa [hk] using this

/-- C108: if the width of the terminal is not known (it is reported as zero), the page is the one of a terminal
of unlimited width: no description is wrapped for lack of room. -/
theorem C108_unknown_width (line : Nat → Nat → Nat → Nat × Bytes × Bytes → Out Bytes) (f : HelpFormat)
    (info : HelpInfo) (flatten : Bool) (target : Node) (hf : formatAsserts f = true) :
    generateHelp line f info 0 flatten target = generateHelp line f info (2 ^ 64 - 1) flatten target ∧
    generateHelpStatic line f info 0 flatten target =
      generateHelpStatic line f info (2 ^ 64 - 1) flatten target := by
  have ho := ((C108_compiles f).1 hf).offset
  have hsm : sizeMax = 2 ^ 64 - 1 := by decide
  have hu : ∀ D, usedColumns f 0 D = usedColumns f (2 ^ 64 - 1) D := by
    intro D
    unfold usedColumns
    rw [if_neg (by omega), hsm]
    split <;> rfl
  constructor
  · simp only [generateHelp, hu]
  · simp only [generateHelpStatic, hu]

/-- A program with a name, a version, an introduction and an addendum. -/
def headFormat : HelpFormat := ⟨4, 8, some (b "prog"), some (b "v1.0"), some (b "A program."), some (b "Bye."), false⟩

/-- The hypotheses of the theorems are met by a page with all its parts. -/
example : formatAsserts headFormat = true ∧ b "prog" = enc "prog".toList ∧ Plain "prog".toList ∧
    generateHelp formatRow headFormat hInfo 80 true (lFiles 15) =
      .ok (b "prog v1.0\n\nA program.\n\n<files> [2,15]\n\nBye.\n") ∧
    formatAsserts { headFormat with offset := 0 } = false ∧
    formatAsserts { headFormat with name := some (b "my prog") } = false ∧
    formatAsserts { headFormat with version := some (b "1") } = false ∧
    formatAsserts { headFormat with intro := none } = true := by
  decide +kernel

/-- C108 is false for names that the library cannot decode: this one has a space in it, which is not noticed,
so the first word of the page is only a part of it. -/
theorem C108_false :
    formatAsserts { headFormat with name := some (enc ['！', ' ', 'a']) } = true ∧
    ∃ out, generateHelp formatRow { headFormat with name := some (enc ['！', ' ', 'a']) } hInfo 80 true
      (lFiles 15) = .ok out ∧ firstWord out = enc ['！'] :=
  ⟨by decide +kernel, _, rfl, by decide +kernel⟩

end Props

end ArgRouter

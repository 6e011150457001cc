import Verif.Tools.Translation

/-!
# C90: generated translations
-/

namespace ArgRouter

namespace Spec

/-- A line of a file of translations that says nothing: it is empty or a comment. -/
def SkippedLine (line : Bytes) : Prop := line = [] ∨ line.head? = some 0x23

/-- A line that gives `value` to `key`: `key = value`. A key has no spaces in it. -/
def EntryLine (line : Bytes) (entry : Bytes × Bytes) : Prop :=
  line = entry.1 ++ b " = " ++ entry.2 ∧ entry.1 ≠ [] ∧ entry.1.head? ≠ some 0x23 ∧ 0x20 ∉ entry.1

/-- The lines give these entries, in this order, and nothing else. -/
inductive Lists : List Bytes → List (Bytes × Bytes) → Prop where
  | nil : Lists [] []
  | skip {l : Bytes} {ls : List Bytes} {es : List (Bytes × Bytes)} :
      SkippedLine l → Lists ls es → Lists (l :: ls) es
  | entry {l : Bytes} {ls : List Bytes} {e : Bytes × Bytes} {es : List (Bytes × Bytes)} :
      EntryLine l e → Lists ls es → Lists (l :: ls) (e :: es)

/-- What a file of translations says: the names, and the messages of the errors if it has that
section. -/
inductive FileSays : List Bytes → List (Bytes × Bytes) → Option (List (Bytes × Bytes)) → Prop where
  | names {ls : List Bytes} {ns : List (Bytes × Bytes)} : Lists ls ns → FileSays ls ns none
  | errors {ls ms : List Bytes} {ns es : List (Bytes × Bytes)} : Lists ls ns → Lists ms es →
      FileSays (ls ++ b "[error_code]" :: ms) ns (some es)

/-- The file with these lines. -/
def fileOf (lines : List Bytes) : Bytes := (lines.map (· ++ [0x0A])).flatten

/-- A compile-time string in C++17 and in C++20. -/
def stringType (cpp17 : Bool) (literal : Bytes) : Bytes :=
  if cpp17 then b "S_(" ++ literal ++ b ")" else b "str<" ++ literal ++ b ">"

/-- The C++ class of translations with these names and errors. -/
def classText (cpp17 : Bool) (language : Bytes) (names : List (Bytes × Bytes))
    (errors : Option (List (Bytes × Bytes))) : Bytes :=
  b "template <>\nclass translation<" ++ stringType cpp17 (b "\"" ++ language ++ b "\"") ++
    b ">\n{\npublic:\n" ++
  (names.map fun e => b "    using " ++ e.1 ++ b " = " ++ stringType cpp17 e.2 ++ b ";\n").flatten ++
  (match errors with
   | none => []
   | some es =>
     b "\n    using error_code_translations = std::tuple<\n" ++
     (b ",\n").intercalate (es.map fun e =>
       b "        std::pair<traits::integral_constant<error_code::" ++ e.1 ++ b ">, " ++
         stringType cpp17 e.2 ++ b ">") ++
     (if es = [] then [] else b "\n") ++ b "    >;\n") ++
  b "};\n"

/-- The header with the class, for either version of C++. -/
def headerText (language : Bytes) (names : List (Bytes × Bytes))
    (errors : Option (List (Bytes × Bytes))) : Bytes :=
  b "// Generated by CMake, do not modify manually\nnamespace arg_router::multi_lang\n{\n#ifdef AR_ENABLE_CPP20_STRINGS\n" ++
  classText false language names errors ++ b "#else\n" ++
  classText true language names errors ++ b "#endif\n}  // namespace arg_router::multi_lang\n"

end Spec

namespace Props

open Spec Tools

theorem fileStrings_line (l : Bytes) (h : 0x0A ∉ l ∧ 0x0D ∉ l) (rest : Bytes) : ∀ acc,
    fileStrings acc (l ++ 0x0A :: rest) = (acc ++ l) :: fileStrings [] rest := by
  induction l with
  | nil => intro acc; simp [fileStrings]
  | cons c l ih =>
    intro acc
    simp only [List.mem_cons, not_or] at h
    rw [List.cons_append, fileStrings, if_neg (Ne.symm h.2.1), if_neg (Ne.symm h.1.1),
      ih ⟨h.1.2, h.2.2⟩]
    simp

theorem fileStrings_file (lines : List Bytes) (h : ∀ l ∈ lines, 0x0A ∉ l ∧ 0x0D ∉ l) :
    fileStrings [] (fileOf lines) = lines := by
  induction lines with
  | nil => rfl
  | cons l ls ih =>
    have h1 := fileStrings_line l (h l (by simp)) (fileOf ls) []
    have h2 : fileOf (l :: ls) = l ++ 0x0A :: fileOf ls := by simp [fileOf]
    rw [h2, h1, ih fun x hx => h x (List.mem_cons_of_mem _ hx)]
    rfl

/-- The brackets a character opens. -/
def opens (c : UInt8) : Int := if c = 0x5B then 1 else if c = 0x5D then -1 else 0

theorem splitItems_cons (nest : Int) (acc : Bytes) (c : UInt8) (rest : Bytes) (h : c ≠ 0x3B)
    (hb : ¬ (c = 0x5C ∧ rest.head? = some 0x3B)) :
    splitItems nest acc (c :: rest) = splitItems (nest + opens c) (acc ++ [c]) rest := by
  cases rest with
  | nil => simp [splitItems, h]
  | cons d rest =>
    rw [splitItems, if_neg (by simpa using hb), if_neg (by simp [h])]
    congr 1
    unfold opens
    split
    · rfl
    · split <;> omega

theorem escape_head (xs rest : Bytes) (h : xs ≠ []) :
    (escapeItem xs ++ rest).head? ≠ some 0x3B := by
  cases xs with
  | nil => exact absurd rfl h
  | cons x xs =>
    unfold escapeItem
    split
    · simp
    · rename_i hx; simpa using hx

theorem splitItems_item (x : Bytes) : ∀ (nest : Int) (acc rest : Bytes),
    (rest.head? = some 0x3B → x.getLast? ≠ some 0x5C) →
    splitItems nest acc (escapeItem x ++ rest) =
      splitItems (nest + x.count 0x5B - x.count 0x5D) (acc ++ x) rest := by
  induction x with
  | nil => intro nest acc rest _; simp [escapeItem]
  | cons c xs ih =>
    intro nest acc rest hl
    have hl' : rest.head? = some 0x3B → xs.getLast? ≠ some 0x5C := by
      intro h1 h2
      apply hl h1
      cases xs with
      | nil => cases h2
      | cons y ys => rw [List.getLast?_cons_cons]; exact h2
    by_cases hc : c = 0x3B
    · subst hc
      rw [escapeItem, if_pos rfl, List.cons_append, List.cons_append, splitItems, if_pos ⟨rfl, rfl⟩,
        ih _ _ _ hl']
      simp
    · rw [escapeItem, if_neg hc, List.cons_append, splitItems_cons _ _ _ _ hc, ih _ _ _ hl']
      · congr 1
        · simp only [List.count_cons, opens]
          by_cases h1 : c = 0x5B
          · subst h1; simp; omega
          · by_cases h2 : c = 0x5D
            · subst h2; simp; omega
            · simp [h1, h2]
        · simp
      · rintro ⟨h1, h2⟩
        by_cases hx : xs = []
        · subst hx
          simp only [escapeItem, List.nil_append] at h2
          exact hl h2 (by simp [h1])
        · exact escape_head xs rest hx h2

theorem splitItems_join (lines : List Bytes) (hne : lines ≠ [])
    (h : ∀ l ∈ lines, l.count 0x5B = l.count 0x5D ∧ l.getLast? ≠ some 0x5C) :
    splitItems 0 [] (joinItems lines) = lines := by
  induction lines with
  | nil => exact absurd rfl hne
  | cons x xs ih =>
    obtain ⟨h1, h2⟩ := h x (by simp)
    cases xs with
    | nil =>
      have := splitItems_item x 0 [] [] (fun _ => h2)
      rw [List.append_nil] at this
      rw [joinItems, this]
      rfl
    | cons y ys =>
      rw [joinItems, splitItems_item x 0 [] _ (fun _ => h2), List.nil_append]
      rw [show (0 : Int) + (x.count 0x5B : Int) - (x.count 0x5D : Int) = 0 by omega]
      have h3 := ih (by simp) fun l hl => h l (List.mem_cons_of_mem _ hl)
      cases hj : joinItems (y :: ys) with
      | nil =>
        rw [hj] at h3
        rw [← h3]
        rfl
      | cons d rest =>
        rw [hj] at h3
        rw [splitItems, if_neg (by simp), if_pos ⟨rfl, rfl⟩, h3]

theorem escape_nil {x : Bytes} (h : escapeItem x = []) : x = [] := by
  cases x with
  | nil => rfl
  | cons c xs => unfold escapeItem at h; split at h <;> cases h

theorem listItems_join (lines : List Bytes) (hne : ∃ l ∈ lines, l ≠ [])
    (h : ∀ l ∈ lines, l.count 0x5B = l.count 0x5D ∧ l.getLast? ≠ some 0x5C) :
    listItems (joinItems lines) = lines := by
  have h1 : lines ≠ [] := by obtain ⟨l, hl, -⟩ := hne; exact List.ne_nil_of_mem hl
  have h2 : joinItems lines ≠ [] := by
    intro hj
    match lines, hj with
    | [], _ => exact h1 rfl
    | [x], hj =>
      obtain ⟨l, hl, hl2⟩ := hne
      rw [List.mem_singleton.1 hl] at hl2
      exact hl2 (escape_nil hj)
    | x :: y :: xs, hj => simp [joinItems] at hj
  unfold listItems
  rw [if_neg (by simpa using h2), splitItems_join lines h1 h]

theorem splitEntry_entry (k v : Bytes) (h : 0x20 ∉ k) :
    splitEntry (k ++ b " = " ++ v) = some (k, v) := by
  induction k with
  | nil => rfl
  | cons c k ih =>
    simp only [List.mem_cons, not_or] at h
    rw [List.cons_append, List.cons_append, splitEntry, if_neg, ih h.2]
    · rfl
    · rw [List.isPrefixOf_iff_prefix]
      intro hp
      obtain ⟨t, ht⟩ := hp
      exact h.1 (List.cons.inj ht).1

theorem genLine_skip {cpp17 last sec : Bool} {l out : Bytes} (h : SkippedLine l) :
    genLine cpp17 last l sec out = some (sec, out) := by
  unfold genLine
  rw [if_pos]
  rcases h with rfl | h
  · rfl
  · simp [h]

theorem entry_line {l : Bytes} {e : Bytes × Bytes} (h : EntryLine l e) :
    (l.isEmpty || l.head? == some 0x23) = false ∧ (l == b "[error_code]") = false ∧
      splitEntry l = some e := by
  obtain ⟨rfl, h1, h2, h3⟩ := h
  obtain ⟨k, v⟩ := e
  have h4 := splitEntry_entry k v h3
  refine ⟨?_, ?_, h4⟩
  · cases k with
    | nil => exact absurd rfl h1
    | cons c k => simpa using h2
  · simp only [beq_eq_false_iff_ne]
    intro h
    rw [h] at h4
    rw [show splitEntry (b "[error_code]") = none by decide +kernel] at h4
    cases h4

theorem genLine_name {cpp17 last : Bool} {l out : Bytes} {e : Bytes × Bytes} (h : EntryLine l e) :
    genLine cpp17 last l false out = some (false, out ++
      (b "    using " ++ e.1 ++ b " = " ++ stringType cpp17 e.2 ++ b ";\n")) := by
  obtain ⟨h1, h2, h3⟩ := entry_line h
  unfold genLine
  rw [h1, h2, h3]
  simp [translationString, stringType]

/-- The pair of an error. -/
def pairText (cpp17 : Bool) (e : Bytes × Bytes) : Bytes :=
  b "        std::pair<traits::integral_constant<error_code::" ++ e.1 ++ b ">, " ++
    stringType cpp17 e.2 ++ b ">"

theorem genLine_error {cpp17 last : Bool} {l out : Bytes} {e : Bytes × Bytes} (h : EntryLine l e) :
    genLine cpp17 last l true out = some (true, out ++ (pairText cpp17 e ++
      (if last then b "\n" else b ",\n"))) := by
  obtain ⟨h1, h2, h3⟩ := entry_line h
  unfold genLine
  rw [h1, h2, h3]
  simp [translationString, stringType, pairText]

theorem genLines_names {cpp17 : Bool} {ls : List Bytes} {ns : List (Bytes × Bytes)}
    (h : Lists ls ns) : ∀ (rest : List Bytes) (out : Bytes),
    genLines cpp17 (ls ++ rest) false out = genLines cpp17 rest false (out ++
      (ns.map fun e => b "    using " ++ e.1 ++ b " = " ++ stringType cpp17 e.2 ++ b ";\n").flatten) := by
  induction h with
  | nil => intro rest out; simp
  | skip hl _ ih =>
    intro rest out
    rw [List.cons_append, genLines, genLine_skip hl]
    exact ih rest out
  | entry hl _ ih =>
    intro rest out
    rw [List.cons_append, genLines, genLine_name hl]
    simp only [ih, List.map_cons, List.flatten_cons, List.append_assoc]

/-- The errors, if the last line is one. -/
theorem genLines_errors {cpp17 : Bool} {ls : List Bytes} {es : List (Bytes × Bytes)}
    (h : Lists ls es) : ∀ (out : Bytes),
    (es = [] ∨ ∃ l e, ls.getLast? = some l ∧ EntryLine l e) →
    genLines cpp17 ls true out = some (true, out ++
      (b ",\n").intercalate (es.map (pairText cpp17)) ++ (if es = [] then [] else b "\n")) := by
  induction h with
  | nil => intro out _; simp [genLines]
  | @skip l ls es hl hls ih =>
    intro out hlast
    rw [genLines, genLine_skip hl]
    simp only
    apply ih
    rcases hlast with h | ⟨l', e, h1, h2⟩
    · exact .inl h
    · refine .inr ⟨l', e, ?_, h2⟩
      cases ls with
      | nil =>
        simp only [List.getLast?_singleton, Option.some.injEq] at h1
        subst h1
        have := (entry_line h2).1
        rcases hl with rfl | hl
        · simp at this
        · simp [hl] at this
      | cons x xs => rw [← h1, List.getLast?_cons_cons]
  | @entry l ls e es hl hls ih =>
    intro out hlast
    rw [genLines, genLine_error hl]
    simp only
    cases hls with
    | nil => simp [genLines]
    | @skip l2 ls2 es2 hl2 hls2 =>
      have hl3 : es = [] ∨ ∃ l e, (l2 :: ls2).getLast? = some l ∧ EntryLine l e := by
        rcases hlast with h | ⟨l', e', h1, h2⟩
        · cases h
        · exact .inr ⟨l', e', by rw [← h1, List.getLast?_cons_cons], h2⟩
      rw [ih _ hl3]
      have hes : es ≠ [] := by
        rintro rfl
        rcases hlast with h | ⟨l', e', h1, h2⟩
        · cases h
        · rw [List.getLast?_cons_cons] at h1
          have hmem := List.mem_of_getLast? h1
          have hno : ∀ {ls : List Bytes} {es : List (Bytes × Bytes)}, Lists ls es → es = [] →
              ∀ x ∈ ls, SkippedLine x := by
            intro ls es h
            induction h with
            | nil => intro _ x hx; cases hx
            | skip hs _ ih =>
              intro he x hx
              rcases List.mem_cons.1 hx with rfl | hx
              · exact hs
              · exact ih he x hx
            | entry => intro he; cases he
          have h3 := hno (.skip hl2 hls2) rfl l' hmem
          have h4 := (entry_line h2).1
          rcases h3 with rfl | h3
          · simp at h4
          · simp [h3] at h4
      cases es with
      | nil => exact absurd rfl hes
      | cons e2 es2 => simp [List.intercalate_cons_cons]
    | @entry l2 ls2 e2 es2 hl2 hls2 =>
      rw [ih _ (by
        rcases hlast with h | ⟨l', e', h1, h2⟩
        · cases h
        · exact .inr ⟨l', e', by rw [← h1, List.getLast?_cons_cons], h2⟩)]
      simp [List.intercalate_cons_cons]

/-- The class that is generated, in either version of C++. -/
theorem genBody_class (cpp17 : Bool) (language : Bytes) (lines : List Bytes)
    (names : List (Bytes × Bytes)) (errors : Option (List (Bytes × Bytes)))
    (hsays : FileSays lines names errors) (htext : ∀ l ∈ lines, 0x0A ∉ l ∧ 0x0D ∉ l)
    (hlist : ∀ l ∈ lines, l.count 0x5B = l.count 0x5D ∧ l.getLast? ≠ some 0x5C)
    (hne : ∃ l ∈ lines, l ≠ [])
    (hlast : ∀ es, errors = some es → es = [] ∨ ∃ l e, lines.getLast? = some l ∧ EntryLine l e) :
    genBody cpp17 language (fileOf lines) = some (classText cpp17 language names errors) := by
  unfold genBody
  rw [fileStrings_file lines htext, listItems_join lines hne hlist]
  have h1 : lines ≠ [] := by obtain ⟨l, hl, -⟩ := hne; exact List.ne_nil_of_mem hl
  simp only [List.isEmpty_iff, h1, if_false]
  cases hsays with
  | names hn =>
    have := genLines_names (cpp17 := cpp17) hn []
    simp only [List.append_nil] at this
    rw [this]
    simp [genLines, classText, translationString, stringType]
  | @errors ls ms ns es hn he =>
    rw [genLines_names hn, genLines]
    have hl : ∀ last out, genLine cpp17 last (b "[error_code]") false out =
        some (true, out ++ b "\n    using error_code_translations = std::tuple<\n") := by
      intro last out
      unfold genLine
      rw [if_neg (by decide), if_pos (by decide)]
    rw [hl]
    simp only
    rw [genLines_errors he]
    · simp only [classText, translationString, stringType, List.append_assoc, if_true,
        Option.map_some, Option.some.injEq]
      have hp : pairText cpp17 = fun e => pairText cpp17 e := rfl
      rw [hp]
      simp only [pairText, stringType, List.append_assoc]
    · rcases hlast es rfl with h | ⟨l, e, h1, h2⟩
      · exact .inl h
      · refine .inr ⟨l, e, ?_, h2⟩
        cases ms with
        | nil =>
          rw [List.getLast?_append] at h1
          simp only [List.getLast?_singleton, Option.some_or, Option.some.injEq] at h1
          rw [← h1] at h2
          exact absurd (entry_line h2).2.1 (by decide)
        | cons m ms =>
          rw [List.getLast?_append, List.getLast?_cons_cons] at h1
          rw [← h1, List.getLast?_eq_some_getLast (List.cons_ne_nil m ms)]
          simp

/-- C90, what holds: the header generated for a file of translations is the class with exactly the
names and messages in the file, in their order. Missing, because false: files with a bracket without
its partner or a backslash at the end of a line, and files with errors whose last line is not one. -/
theorem C90_header_partial (language : Bytes) (lines : List Bytes)
    (names : List (Bytes × Bytes)) (errors : Option (List (Bytes × Bytes)))
    (hsays : FileSays lines names errors) (htext : ∀ l ∈ lines, 0x0A ∉ l ∧ 0x0D ∉ l)
    (hlist : ∀ l ∈ lines, l.count 0x5B = l.count 0x5D ∧ l.getLast? ≠ some 0x5C)
    (hne : ∃ l ∈ lines, l ≠ [])
    (hlast : ∀ es, errors = some es → es = [] ∨ ∃ l e, lines.getLast? = some l ∧ EntryLine l e) :
    genHeader language (fileOf lines) = some (headerText language names errors) := by
  unfold genHeader
  rw [genBody_class false language lines names errors hsays htext hlist hne hlast,
    genBody_class true language lines names errors hsays htext hlist hne hlast]
  simp [headerText]

/-- C90: a line that is none of the kinds a file consists of is an error, not skipped. -/
theorem C90_malformed (language : Bytes) (before after : List Bytes) (line : Bytes)
    (htext : ∀ l ∈ before ++ line :: after, 0x0A ∉ l ∧ 0x0D ∉ l)
    (hlist : ∀ l ∈ before ++ line :: after, l.count 0x5B = l.count 0x5D ∧ l.getLast? ≠ some 0x5C)
    (hs : ¬ SkippedLine line) (hc : line ≠ b "[error_code]") (he : ¬ b " = " <:+: line) :
    genHeader language (fileOf (before ++ line :: after)) = none := by
  have hsplit : ∀ x : Bytes, ¬ b " = " <:+: x → splitEntry x = none := by
    intro x
    induction x with
    | nil => intro _; rfl
    | cons c x ih =>
      intro h
      rw [splitEntry, if_neg, ih fun hx => h (List.infix_cons hx)]
      · rfl
      · rw [List.isPrefixOf_iff_prefix]
        exact fun hp => h hp.isInfix
  have hline : ∀ cpp17 last sec out, genLine cpp17 last line sec out = none := by
    intro cpp17 last sec out
    have h1 : (line.isEmpty || line.head? == some 0x23) = false := by
      rw [Bool.eq_false_iff]
      intro h
      apply hs
      rcases Bool.or_eq_true_iff.1 h with h | h
      · exact .inl (List.isEmpty_iff.1 h)
      · exact .inr (by simpa using h)
    have h2 : (line == b "[error_code]") = false := by simpa using hc
    unfold genLine
    rw [h1, h2, hsplit line he]
    rfl
  have hlines : ∀ cpp17 (ls : List Bytes) sec out, genLines cpp17 (ls ++ line :: after) sec out = none := by
    intro cpp17 ls
    induction ls with
    | nil => intro sec out; rw [List.nil_append, genLines, hline]
    | cons l ls ih =>
      intro sec out
      rw [List.cons_append, genLines]
      split
      · rfl
      · exact ih _ _
  unfold genHeader genBody
  rw [fileStrings_file _ htext, listItems_join _ ⟨line, by simp, fun h => hs (.inl h)⟩ hlist]
  simp [hlines]

/-- A file of translations. -/
def sampleLines : List Bytes :=
  [b "# Sample", b "", b "copy = \"copier\"", b "intro = \"a; b [c] = d\"", b "", b "[error_code]",
   b "# errors", b "unknown_argument = \"Argument \\\"inconnu\\\"\"", b "failed_to_parse = \"x\""]

/-- C90 is false in these cases. A comment at the end leaves a comma behind the last error. A bracket
without its partner swallows the rest of the file (`copy` is lost), so does a backslash at the end of
a line with the next one. -/
theorem C90_false :
    genBody true (b "fr") (fileOf (sampleLines ++ [b "# end"])) ≠
      genBody true (b "fr") (fileOf sampleLines) ∧
    (∃ out, genBody true (b "fr") (fileOf (sampleLines ++ [b "# end"])) = some out ∧
      (b "S_(\"x\")>,\n    >;\n};\n").isSuffixOf out = true) ∧
    genBody true (b "fr") (fileOf [b "intro = \"[FILE\"", b "copy = \"copier\""]) =
      some (b "template <>\nclass translation<S_(\"fr\")>\n{\npublic:\n    using intro = S_(\"[FILE\";copy = \"copier\");\n};\n") ∧
    genBody true (b "fr") (fileOf [b "# C:\\", b "copy = \"copier\"", b "move = \"x\""]) =
      some (b "template <>\nclass translation<S_(\"fr\")>\n{\npublic:\n    using move = S_(\"x\");\n};\n") := by
  refine ⟨by decide +kernel, ?_, by decide +kernel, by decide +kernel⟩
  exact ⟨_, rfl, by decide +kernel⟩

/-- The sample meets the hypotheses of `C90_header_partial`. -/
example : FileSays sampleLines
      [(b "copy", b "\"copier\""), (b "intro", b "\"a; b [c] = d\"")]
      (some [(b "unknown_argument", b "\"Argument \\\"inconnu\\\"\""), (b "failed_to_parse", b "\"x\"")]) ∧
    (∀ l ∈ sampleLines, 0x0A ∉ l ∧ 0x0D ∉ l) ∧
    (∀ l ∈ sampleLines, l.count 0x5B = l.count 0x5D ∧ l.getLast? ≠ some 0x5C) ∧
    (∃ l ∈ sampleLines, l ≠ []) ∧
    ∃ l e, sampleLines.getLast? = some l ∧ EntryLine l e := by
  refine ⟨?_, by decide +kernel, by decide +kernel, ⟨b "# Sample", by decide, by decide⟩,
    b "failed_to_parse = \"x\"", (b "failed_to_parse", b "\"x\""), by decide +kernel, ?_⟩
  · refine .errors (ls := sampleLines.take 5) (ms := sampleLines.drop 6) ?_ ?_
    · exact .skip (.inr rfl) (.skip (.inl rfl) (.entry ⟨by decide +kernel, by decide, by decide, by decide⟩
        (.entry ⟨by decide +kernel, by decide, by decide, by decide⟩ (.skip (.inl rfl) .nil))))
    · exact .skip (.inr rfl) (.entry ⟨by decide +kernel, by decide, by decide, by decide⟩
        (.entry ⟨by decide +kernel, by decide, by decide, by decide⟩ .nil))
  · exact ⟨by decide +kernel, by decide, by decide, by decide⟩

end Props

end ArgRouter

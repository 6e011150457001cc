import Verif.Examples.Languages
import Verif.Props.Translation
import Verif.Props.WholeExamples
import Verif.Props.Util

/-!
# C91: programs in several languages
-/

namespace ArgRouter

open Spec Utf8

namespace Spec

open Examples

/-- The messages of examples/resources/simple_ml_gen/fr.toml. -/
def frenchMessage : ErrorCode → List Piece
  | .unknown_argument =>
    [.text (b "Argument inconnu")]
  | .unhandled_arguments =>
    [.text (b "Arguments non gérés")]
  | .argument_has_already_been_set =>
    [.text (b "L'argument a déjà été défini")]
  | .failed_to_parse =>
    [.text (b "L'analyse a échoué")]
  | .no_arguments_passed =>
    [.text (b "Aucun argument passé")]
  | .minimum_value_not_reached =>
    [.text (b "Valeur minimale non atteinte")]
  | .maximum_value_exceeded =>
    [.text (b "Valeur maximale dépassée")]
  | .minimum_count_not_reached =>
    [.text (b "Nombre minimum non atteint")]
  | .maximum_count_exceeded =>
    [.text (b "Nombre maximal dépassé")]
  | .unknown_argument_with_suggestion =>
    [.text (b "Argument inconnu\u00a0: "), .one, .text (b ". Vouliez-vous dire "), .rest (b " "), .text (b "?")]
  | .mode_requires_arguments =>
    [.text (b "Le mode nécessite des arguments")]
  | .missing_required_argument =>
    [.text (b "Argument requis manquant")]
  | .too_few_values_for_alias =>
    [.text (b "Trop peu de valeurs pour l'alias")]
  | .dependent_argument_missing =>
    [.text (b "Argument dépendant manquant (doit être avant le jeton requis sur la ligne de commande)")]
  | .one_of_selected_type_mismatch =>
    [.text (b "Un seul argument d'un \"One Of\" peut être utilisé à la fois")]
  | .missing_value_separator =>
    [.text (b "Attendu un séparateur de valeur")]

/-- The messages of examples/resources/simple_ml_gen/ja.toml. -/
def japaneseMessage : ErrorCode → List Piece
  | .unknown_argument =>
    [.text (b "不明な引数")]
  | .unhandled_arguments =>
    [.text (b "未処理の引数")]
  | .argument_has_already_been_set =>
    [.text (b "引数はすでに設定されています")]
  | .failed_to_parse =>
    [.text (b "解析に失敗しました")]
  | .no_arguments_passed =>
    [.text (b "引数が渡されませんでした")]
  | .minimum_value_not_reached =>
    [.text (b "最小値に達していません")]
  | .maximum_value_exceeded =>
    [.text (b "最大値を超えました")]
  | .minimum_count_not_reached =>
    [.text (b "最小数に達していません")]
  | .maximum_count_exceeded =>
    [.text (b "最大数を超えました")]
  | .unknown_argument_with_suggestion =>
    [.text (b "不明な引数 "), .one, .text (b "。 "), .rest (b " "), .text (b " という意味でしたか？")]
  | .mode_requires_arguments =>
    [.text (b "モードには引数が必要です")]
  | .missing_required_argument =>
    [.text (b "必要な引数がありません")]
  | .too_few_values_for_alias =>
    [.text (b "エイリアス値が少なすぎる")]
  | .dependent_argument_missing =>
    [.text (b "従属引数がありません (コマンドラインで必要なトークンの前に置く必要があります)")]
  | .one_of_selected_type_mismatch =>
    [.text (b "一度に許可される「One Of」引数は1つだけです")]
  | .missing_value_separator =>
    [.text (b "値の区切り文字が必要です")]

/-- The message of an error in each of the languages of the example program. -/
def messageIn (language : Bytes) : ErrorCode → List Piece :=
  if language = b "fr" then frenchMessage else if language = b "ja" then japaneseMessage else english

/-- The example program in a language, in a terminal of the given width. -/
def exampleIn (columns : Nat) (language : Bytes) : LanguageRoot :=
  ⟨exProgram (simpleFormatIn (wordsIn language)) columns (simpleIn (wordsIn language)),
    (wordsIn language).errors⟩

/-- The language spoken to a user who asks for one: the one asked for, or else the first. -/
def Spoken (ids : List Bytes) (requested id : Bytes) : Prop :=
  id ∈ ids ∧ (requested ∈ ids → id = requested) ∧ (requested ∉ ids → ids.head? = some id)

end Spec

namespace Props

open Examples Tools

theorem spoken_unique {ids : List Bytes} {requested id id' : Bytes} (h : Spoken ids requested id)
    (h' : Spoken ids requested id') : id = id' := by
  by_cases hr : requested ∈ ids
  · rw [h.2.1 hr, h'.2.1 hr]
  · exact Option.some.inj ((h.2.2 hr).symm.trans (h'.2.2 hr))

theorem select_spoken {ids : List Bytes} (hne : ids ≠ []) (requested : Bytes) :
    Spoken ids requested (ids.getD (selectLanguage requested ids) []) := by
  obtain ⟨h1, h2⟩ := C59_selected requested ids
  by_cases hr : requested ∈ ids
  · have h3 : ids.getD (selectLanguage requested ids) [] = requested := by
      rw [List.getD_eq_getElem?_getD, (h1 hr).1]
      rfl
    rw [h3]
    exact ⟨hr, fun _ => rfl, fun h => absurd hr h⟩
  · rw [h2 hr]
    cases ids with
    | nil => exact absurd rfl hne
    | cons id ids => exact ⟨by simp, fun h => absurd h hr, fun _ => rfl⟩

/-- C91: whatever is done with a program in several languages, the program in the language spoken to
the user does it. -/
theorem C91_selected (cfg : Config) (ids : List Bytes) (factory : Bytes → LanguageRoot)
    (requested id : Bytes) (h : Spoken ids requested id) (args : List Bytes) (s : St) :
    multiSeen cfg ids factory requested args s =
      rootSeen cfg (factory id).errors defaultTranslations (factory id).tree args s := by
  have hne : ids ≠ [] := List.ne_nil_of_mem h.1
  have := spoken_unique (select_spoken hne requested) h
  unfold multiSeen multiRoot
  rw [this]

/-- C91: the locale's name decides: what follows a dot does not matter, but the country does. A
program that has `fr` does not speak French to a user whose locale is `fr_FR.UTF-8`. -/
theorem C91_locale :
    Spoken languages (isoLocale (b "fr")) (b "fr") ∧
    Spoken languages (isoLocale (b "ja.UTF-8")) (b "ja") ∧
    Spoken languages (isoLocale (b "en-GB.UTF-8")) (b "en_GB") ∧
    Spoken languages (isoLocale (b "fr_FR.UTF-8")) (b "en_GB") := by
  have h : ∀ n id, languages.getD (selectLanguage (isoLocale n) languages) [] = id →
      Spoken languages (isoLocale n) id := fun n id h => h ▸ select_spoken (by decide) _
  exact ⟨h _ _ (by decide +kernel), h _ _ (by decide +kernel), h _ _ (by decide +kernel),
    h _ _ (by decide +kernel)⟩

/-! ## The files -/

/-- The entries of lines that are all entries or skipped. -/
def entriesOf : List Bytes → Option (List (Bytes × Bytes))
  | [] => some []
  | l :: ls =>
    if l.isEmpty || l.head? == some 0x23 then entriesOf ls
    else
      match splitEntry l with
      | none => none
      | some e =>
        if e.1.isEmpty || e.1.contains 0x20 then none else (entriesOf ls).map (e :: ·)

theorem splitEntry_some {l : Bytes} {e : Bytes × Bytes} (h : splitEntry l = some e) :
    l = e.1 ++ b " = " ++ e.2 := by
  induction l generalizing e with
  | nil => cases h
  | cons c l ih =>
    rw [splitEntry] at h
    split at h
    · rename_i hp
      obtain ⟨t, ht⟩ := List.isPrefixOf_iff_prefix.1 hp
      cases h
      rw [← ht]
      have : l = (b " = ").tail ++ t := (List.cons.inj ht).2.symm
      rw [this]
      rfl
    · cases hs : splitEntry l with
      | none => rw [hs] at h; cases h
      | some e' =>
        rw [hs] at h
        cases h
        have := ih hs
        simp only [List.cons_append]
        rw [← this]

theorem entriesOf_lists {ls : List Bytes} {es : List (Bytes × Bytes)} (h : entriesOf ls = some es) :
    Lists ls es := by
  induction ls generalizing es with
  | nil => cases h; exact .nil
  | cons l ls ih =>
    rw [entriesOf] at h
    split at h
    · rename_i hs
      refine .skip ?_ (ih h)
      rcases Bool.or_eq_true_iff.1 hs with hs | hs
      · exact .inl (List.isEmpty_iff.1 hs)
      · exact .inr (by simpa using hs)
    · rename_i hs
      split at h
      · cases h
      · rename_i e he
        split at h
        · cases h
        · rename_i hk
          simp only [Bool.or_eq_true, not_or, List.isEmpty_iff, List.contains_iff_mem] at hk hs
          have hl := splitEntry_some he
          cases hls : entriesOf ls with
          | none => rw [hls] at h; cases h
          | some es' =>
            rw [hls] at h
            cases h
            refine .entry ⟨hl, hk.1, ?_, hk.2⟩ (ih hls)
            intro hh
            apply hs.2
            rw [hl]
            cases hk' : e.1 with
            | nil => exact absurd hk' hk.1
            | cons c k =>
              rw [hk'] at hh
              simpa using hh

/-- The files of the example say the words the example is made of. -/
theorem C91_files (language : Bytes) (hl : language ∈ languages) :
    ∃ lines names errors, FileSays lines names errors ∧
      (language, lines) ∈ [(b "en_GB", englishFile), (b "fr", frenchFile), (b "ja", japaneseFile)] ∧
      genHeader language (fileOf lines) = some (headerText language names errors) ∧
      wordsIn language = wordsOf names (errors.getD []) := by
  simp only [languages, List.mem_cons, List.not_mem_nil, or_false] at hl
  rcases hl with rfl | rfl | rfl
  · cases h : entriesOf englishFile with
    | none => exact absurd h (by decide +kernel)
    | some ns =>
      have hs : FileSays englishFile ns none := .names (entriesOf_lists h)
      refine ⟨_, ns, none, hs, by simp, C90_header_partial _ _ _ _ hs (by decide +kernel)
        (by decide +kernel) ⟨_, List.mem_cons_self, by decide +kernel⟩ (fun es h => nomatch h), ?_⟩
      have : some (wordsIn (b "en_GB")) = (entriesOf englishFile).map (wordsOf · []) := by
        decide +kernel
      rw [h] at this
      exact Option.some.inj this
  · cases h : entriesOf (frenchFile.take 20) with
    | none => exact absurd h (by decide +kernel)
    | some ns =>
      cases h2 : entriesOf (frenchFile.drop 21) with
      | none => exact absurd h2 (by decide +kernel)
      | some es =>
        have hf : frenchFile = frenchFile.take 20 ++ b "[error_code]" :: frenchFile.drop 21 := by
          decide +kernel
        have hs : FileSays frenchFile ns (some es) := by
          have := FileSays.errors (entriesOf_lists h) (entriesOf_lists h2)
          rw [← hf] at this
          exact this
        refine ⟨_, ns, some es, hs, by simp, C90_header_partial _ _ _ _ hs (by decide +kernel)
          (by decide +kernel) ⟨_, List.mem_cons_self, by decide +kernel⟩ ?_, ?_⟩
        · intro es' _
          refine .inr ⟨b "missing_value_separator = \"Attendu un séparateur de valeur\"",
            (b "missing_value_separator", b "\"Attendu un séparateur de valeur\""), by decide +kernel,
            ⟨by decide +kernel, by decide, by decide, by decide +kernel⟩⟩
        · have : some (wordsIn (b "fr")) = (entriesOf (frenchFile.take 20)).bind fun ns =>
              (entriesOf (frenchFile.drop 21)).map (wordsOf ns ·) := by decide +kernel
          rw [h, h2] at this
          exact Option.some.inj this
  · cases h : entriesOf (japaneseFile.take 20) with
    | none => exact absurd h (by decide +kernel)
    | some ns =>
      cases h2 : entriesOf (japaneseFile.drop 21) with
      | none => exact absurd h2 (by decide +kernel)
      | some es =>
        have hf : japaneseFile = japaneseFile.take 20 ++ b "[error_code]" :: japaneseFile.drop 21 := by
          decide +kernel
        have hs : FileSays japaneseFile ns (some es) := by
          have := FileSays.errors (entriesOf_lists h) (entriesOf_lists h2)
          rw [← hf] at this
          exact this
        refine ⟨_, ns, some es, hs, by simp, C90_header_partial _ _ _ _ hs (by decide +kernel)
          (by decide +kernel) ⟨_, List.mem_cons_self, by decide +kernel⟩ ?_, ?_⟩
        · intro es' _
          refine .inr ⟨b "missing_value_separator = \"値の区切り文字が必要です\"",
            (b "missing_value_separator", b "\"値の区切り文字が必要です\""), by decide +kernel,
            ⟨by decide +kernel, by decide, by decide, by decide +kernel⟩⟩
        · have : some (wordsIn (b "ja")) = (entriesOf (japaneseFile.take 20)).bind fun ns =>
              (entriesOf (japaneseFile.drop 21)).map (wordsOf ns ·) := by decide +kernel
          rw [h, h2] at this
          exact Option.some.inj this

/-! ## The program -/

set_option maxRecDepth 100000
set_option maxHeartbeats 2000000

/-- A way to see that a table has a message. -/
theorem firstFor_of {t : Translations} {code : Nat} {msg : Bytes}
    (h : t.find? (fun e => e.1 == code) = some (code, msg)) : FirstFor t code msg := by
  obtain ⟨-, as, bs, rfl, hb⟩ := List.find?_eq_some_iff_append.1 h
  exact ⟨as, bs, rfl, fun e he => by simpa using hb e he⟩

theorem message_wf (language : Bytes) (ec : ErrorCode) : Spec.WellFormed (messageIn language ec) := by
  unfold messageIn
  split
  · cases ec <;> simp only [frenchMessage, Spec.WellFormed, Piece.Ok, NoBrace] <;> decide +kernel
  · split
    · cases ec <;> simp only [japaneseMessage, Spec.WellFormed, Piece.Ok, NoBrace] <;> decide +kernel
    · exact english_wf ec

theorem message_translated (cfg : Config) (language : Bytes) (ec : ErrorCode) (ts : List Token) :
    translate cfg (wordsIn language).errors defaultTranslations ec.num ts =
      .ok (errorText cfg (messageIn language ec) ts) := by
  have hwf := message_wf language ec
  unfold messageIn wordsIn at *
  split
  · rename_i h
    rw [if_pos h] at hwf
    exact C56_custom cfg _ _ _ _ hwf (firstFor_of (by cases ec <;> decide +kernel)) ts
  · split
    · rename_i h1 h
      rw [if_neg h1, if_pos h] at hwf
      exact C56_custom cfg _ _ _ _ hwf (firstFor_of (by cases ec <;> decide +kernel)) ts
    · exact C56_default cfg _ ec (fun e he => by cases he) ts

/-- C91, the example: an error is reported in the language spoken to the user, with the words of that
language's file. -/
theorem C91_messages (columns : Nat) (requested language : Bytes)
    (h : Spoken languages requested language) (args : List Bytes) (s s' : St) (e : Exc)
    (he : parseArgs .default (exampleIn columns language).tree args s = (.throw e, s')) :
    multiSeen .default languages (exampleIn columns) requested args s =
      (.parseException (errorText .default (messageIn language e.ec) e.tokens), s') := by
  rw [C91_selected _ _ _ _ _ h]
  unfold rootSeen
  rw [he]
  simp only [exampleIn, message_translated]

/-- C91: the program compiles in every language, and C88 says what it does. In English it is the
program `simple`. -/
theorem C91_programs (columns : Nat) (language : Bytes) (hl : language ∈ languages) :
    compiles .default 100 defaultRules (exampleIn columns language).tree = true ∧
    OrdinaryProgram (exampleIn columns language).tree ∧
    (exampleIn columns (b "en_GB")).tree = exProgram simpleFormat columns simple := by
  simp only [languages, List.mem_cons, List.not_mem_nil, or_false] at hl
  rcases hl with rfl | rfl | rfl
  · exact ⟨by with_unfolding_all rfl, program_of_test (by with_unfolding_all rfl), rfl⟩
  · exact ⟨by with_unfolding_all rfl, program_of_test (by with_unfolding_all rfl), rfl⟩
  · exact ⟨by with_unfolding_all rfl, program_of_test (by with_unfolding_all rfl), rfl⟩

/-! ## Copying in every language -/

/-- The words of the example in its languages. -/
def threeWords : List Examples.Words := [Examples.english, Examples.french, Examples.japanese]

theorem wordsIn_mem (language : Bytes) : wordsIn language ∈ threeWords := by
  unfold wordsIn
  split
  · simp [threeWords]
  · split <;> simp [threeWords]

/-- The flag of the copy mode. -/
def forceIn (w : Examples.Words) : Node :=
  mkFlag .default 11 11 [.longName w.force, .description w.forceDescription, .shortName (b "f")]

/-- The destination of the copy mode. -/
def destinationIn (w : Examples.Words) : Node :=
  mkPositional 12 12 path
    [.displayName w.destination, .description w.destinationDescription, .required, .minMaxCount 1 1]

/-- The sources of the copy mode. -/
def sourcesIn (w : Examples.Words) : Node :=
  mkPositional 13 13 (listOf path)
    [.displayName w.source, .description w.sourcesDescription, .required, .minMaxCount 1 sizeMax]

/-- The copy mode. -/
def copyIn (w : Examples.Words) : Node :=
  mkMode 10 10 [.noneName w.copy, .description w.copyDescription, .router]
    [forceIn w, destinationIn w, sourcesIn w]

/-- The move mode. -/
def moveIn (w : Examples.Words) : Node := (simpleIn w).children.getD 2 (copyIn w)

theorem words_cases {P : Examples.Words → Prop} {w : Examples.Words} (hw : w ∈ threeWords) (h1 : P Examples.english)
    (h2 : P Examples.french) (h3 : P Examples.japanese) : P w := by
  simp only [threeWords, List.mem_cons, List.not_mem_nil, or_false] at hw
  rcases hw with rfl | rfl | rfl
  · exact h1
  · exact h2
  · exact h3

theorem force_label {w : Examples.Words} (hw : w ∈ threeWords) {f : Bytes}
    (hf : f = b "-f" ∨ f = b "--" ++ w.force) : IsLabel .default (forceIn w) ⟨.none, f⟩ := by
  refine (labelTest_iff _ _ _).1 ?_
  rcases hf with rfl | rfl
  · exact words_cases (P := fun w => labelTest .default (forceIn w) ⟨.none, b "-f"⟩ = true) hw
      (by decide +kernel) (by decide +kernel) (by decide +kernel)
  · exact words_cases (P := fun w => labelTest .default (forceIn w) ⟨.none, b "--" ++ w.force⟩ = true)
      hw (by decide +kernel) (by decide +kernel) (by decide +kernel)

theorem copy_label {w : Examples.Words} (hw : w ∈ threeWords) : IsLabel .default (copyIn w) ⟨.none, w.copy⟩ :=
  (labelTest_iff _ _ _).1 (words_cases
    (P := fun w => labelTest .default (copyIn w) ⟨.none, w.copy⟩ = true) hw
      (by decide +kernel) (by decide +kernel) (by decide +kernel))

theorem copy_plain {w : Examples.Words} (hw : w ∈ threeWords) : ¬ b "-" <+: w.copy :=
  words_cases (P := fun w => ¬ b "-" <+: w.copy) hw (by decide +kernel) (by decide +kernel)
    (by decide +kernel)

theorem word_lengths {w : Examples.Words} (hw : w ∈ threeWords) : w.copy.length ≤ 20 ∧ w.force.length ≤ 30 :=
  words_cases (P := fun w => w.copy.length ≤ 20 ∧ w.force.length ≤ 30) hw (by decide +kernel)
    (by decide +kernel) (by decide +kernel)

theorem words_program (columns : Nat) {w : Examples.Words} (hw : w ∈ threeWords) :
    OrdinaryProgram (exProgram (simpleFormatIn w) columns (simpleIn w)) :=
  words_cases (P := fun w => OrdinaryProgram (exProgram (simpleFormatIn w) columns (simpleIn w))) hw
    (program_of_test (by with_unfolding_all rfl)) (program_of_test (by with_unfolding_all rfl))
    (program_of_test (by with_unfolding_all rfl))

/-- The reading of the arguments of `copy` after the flag. -/
theorem copyIn_reading (w : Examples.Words) (chosen : Choices) (flag : List Leaf) (used : List Nat) (hu : 1 ∉ used ∧ 2 ∉ used)
    (dst src : Bytes) (more : List Bytes) (hd : ¬ b "-" <+: dst) (hs : ¬ b "-" <+: src)
    (hlen : more.length + 1 ≤ sizeMax) :
    Reading .default (copyIn w) chosen flag used ((dst :: src :: more).map (Token.mk .none))
      (.accepts (flag ++ [⟨destinationIn w, [⟨.none, dst⟩]⟩] ++
        [⟨sourcesIn w, (src :: more).map (Token.mk .none)⟩])) chosen := by
  have hargs : arguments (copyIn w) = [(0, forceIn w), (1, destinationIn w), (2, sourcesIn w)] := by rfl
  have hlong : ∀ x : Bytes, ¬ b "-" <+: x → ¬ Config.default.longPrefix <+: x := fun x hx h =>
    hx (List.IsPrefix.trans (by decide) h)
  have hforce : ∀ (sofar : List Leaf) (used : List Nat) (x : Bytes) (rest : List Token),
      ¬ b "-" <+: x → ¬ Wants .default (copyIn w) sofar used ⟨.none, x⟩ rest (0, forceIn w) := by
    rintro sofar used x rest hx ⟨⟨cl, hcl⟩, -⟩
    exact plain_no_claims (hlong x hx) hx rfl rfl cl hcl
  have hcl1 : Claims .default (copyIn w) flag (destinationIn w) ⟨.none, dst⟩
      ((src :: more).map (Token.mk .none))
      (.takes [⟨destinationIn w, [⟨.none, dst⟩]⟩] ((src :: more).map (Token.mk .none))) :=
    ⟨shapeOf (destinationIn w), declared_of_test (by with_unfolding_all rfl),
      .takes (.positional rfl) (by with_unfolding_all rfl) (by
        rintro d ⟨refs, _, _, h, -⟩; cases h)⟩
  have hcl2 : ∀ sofar, Claims .default (copyIn w) sofar (sourcesIn w) ⟨.none, src⟩
      (more.map (Token.mk .none)) (.takes [⟨sourcesIn w, (src :: more).map (Token.mk .none)⟩] []) := by
    intro sofar
    refine ⟨shapeOf (sourcesIn w), declared_of_test (by with_unfolding_all rfl),
      .takes (.positional rfl) ?_ (by rintro d ⟨refs, _, _, h, -⟩; cases h)⟩
    have h1 : (shapeOf (sourcesIn w)).marker = none := rfl
    have h2 : (shapeOf (sourcesIn w)).min = 1 := rfl
    have h3 : (shapeOf (sourcesIn w)).max = sizeMax := rfl
    have hl : (more.map (Token.mk .none)).length = more.length := List.length_map _
    unfold Shape.values
    rw [h1, h2, h3]
    simp only
    rw [if_neg (by simp)]
    rw [List.take_of_length_le (by rw [List.length_cons]; omega),
      List.drop_of_length_le (by rw [List.length_cons]; omega)]
    rfl
  refine .take (a := (1, destinationIn w)) ⟨[(0, forceIn w)], [(2, sourcesIn w)], hargs, ?_, ⟨_, hcl1⟩, ?_⟩
    (by rintro o ⟨h, -⟩; cases h) (.inr hu.1) hcl1 (.take (a := (2, sourcesIn w)) ⟨[(0, forceIn w), (1, destinationIn w)], [], hargs, ?_,
      ⟨_, hcl2 _⟩, ?_⟩ (by rintro o ⟨h, -⟩; cases h) ?_ (hcl2 _) .done)
  · intro x hx
    rw [List.mem_singleton.1 hx]
    exact hforce _ _ _ _ hd
  · exact .inr (.inr hu.1)
  · intro x hx
    simp only [List.mem_cons, List.not_mem_nil, or_false] at hx
    rcases hx with rfl | rfl
    · exact hforce _ _ _ _ hs
    · rintro ⟨-, h | h | h⟩
      · cases h
      · cases h
      · simp at h
  · exact .inr (.inr (by simp [hu.2]))
  · exact .inr (by simp [hu.2])

/-- The same with the flag. -/
theorem copyIn_reading_forced (w : Examples.Words) (hw : w ∈ threeWords) (chosen : Choices) (f : Bytes)
    (hf : f = b "-f" ∨ f = b "--" ++ w.force)
    (dst src : Bytes) (more : List Bytes) (hd : ¬ b "-" <+: dst) (hs : ¬ b "-" <+: src)
    (hlen : more.length + 1 ≤ sizeMax) :
    Reading .default (copyIn w) chosen [] [] ((f :: dst :: src :: more).map (Token.mk .none))
      (.accepts ([] ++ [⟨forceIn w, []⟩] ++ [⟨destinationIn w, [⟨.none, dst⟩]⟩] ++
        [⟨sourcesIn w, (src :: more).map (Token.mk .none)⟩])) chosen := by
  have hl : IsLabel .default (forceIn w) ⟨.none, f⟩ := force_label hw hf
  have hcl : Claims .default (copyIn w) [] (forceIn w) ⟨.none, f⟩
      ((dst :: src :: more).map (Token.mk .none))
      (.takes [⟨forceIn w, []⟩] ((dst :: src :: more).map (Token.mk .none))) :=
    ⟨shapeOf (forceIn w), declared_of_test (by with_unfolding_all rfl),
      .takes (.label rfl hl) (by with_unfolding_all rfl) (by
        rintro d ⟨refs, _, _, h, -⟩; cases h)⟩
  refine .take (a := (0, forceIn w)) ⟨[], [(1, destinationIn w), (2, sourcesIn w)], by rfl,
    (fun _ h => nomatch h), ⟨_, hcl⟩, .inl rfl⟩ (by rintro o ⟨h, -⟩; cases h) (.inr (by simp)) hcl
    (copyIn_reading w chosen _ [0] (by simp) dst src more hd hs hlen)

theorem parse_sources (w : Examples.Words) (l : List Bytes) :
    parseTokens (sourcesIn w) (l.map (Token.mk .none)) = .ok (l.map .str) := by
  induction l with
  | nil => rfl
  | cons x l ih =>
    rw [List.map_cons, parseTokens, ih]
    rfl

/-- What `copy` does with its arguments. -/
theorem copyIn_outcome (w : Examples.Words) (dst : Bytes) (srcs : List Bytes) (forced : Bool) (s : St) :
    parseMode (copyIn w) ((if forced then [⟨forceIn w, []⟩] else []) ++
      [⟨destinationIn w, [⟨.none, dst⟩]⟩] ++ [⟨sourcesIn w, srcs.map (Token.mk .none)⟩]) s =
      (.ok (), { s with calls := s.calls ++
        [⟨(copyIn w).uid, [.one (.bool forced), .one (.str dst), .many (srcs.map .str)]⟩] }) := by
  have h1 : parseLeaf ⟨sourcesIn w, srcs.map (Token.mk .none)⟩ =
      pure (some (.many (srcs.map .str))) := by
    have h2 : parseValue (sourcesIn w) (srcs.map (Token.mk .none)) = .ok (.many (srcs.map .str)) := by
      unfold parseValue
      rw [if_pos (show (sourcesIn w).vt.isList = true from rfl), parse_sources]
      rfl
    show (M.lift (parseValue (sourcesIn w) (srcs.map (Token.mk .none))) >>= _) = _
    rw [h2]
    rfl
  have h2 : parseLeaf ⟨destinationIn w, [⟨.none, dst⟩]⟩ = pure (some (.one (.str dst))) := by rfl
  have h3 : parseLeaf ⟨forceIn w, []⟩ = pure (some (.one (.bool true))) := by rfl
  unfold parseMode
  cases forced
  · simp only [Bool.false_eq_true, if_false, List.nil_append, List.singleton_append, processSubs, h1,
      h2, M.pure_bind]
    rfl
  · simp only [if_true, List.cons_append, List.nil_append, processSubs, h1, h2,
      h3, M.pure_bind]
    rfl

theorem words_copy (columns : Nat) (w : Examples.Words) (hw : w ∈ threeWords) (opts : List Bytes)
    (forced : Bool) (dst src : Bytes) (more : List Bytes) (s : St)
    (hopts : (opts = [] ∧ forced = false) ∨
      ((opts = [b "-f"] ∨ opts = [b "--" ++ w.force]) ∧ forced = true))
    (hd : ¬ b "-" <+: dst) (hs : ¬ b "-" <+: src)
    (hmore : ∀ x ∈ more, Readable .default ⟨.none, x⟩)
    (hlen : dst.length + src.length + (more.map List.length).sum + more.length + 60 < 2 ^ 63) :
    parseArgs .default (exProgram (simpleFormatIn w) columns (simpleIn w))
        ([w.copy] ++ opts ++ [dst] ++ src :: more) s =
      (.ok (), { s with calls := s.calls ++
        [⟨(copyIn w).uid, [.one (.bool forced), .one (.str dst),
          .many ((src :: more).map .str)]⟩] }) := by
  have hplain : ∀ x : Bytes, ¬ b "-" <+: x → Readable .default ⟨.none, x⟩ := by
    rintro x hx y (⟨h, -⟩ | ⟨-, h, -⟩)
    · cases h
    · exact absurd ⟨y, h.symm⟩ hx
  have hfr : Readable .default ⟨.none, b "-f"⟩ := by
    rintro y (⟨h, -⟩ | ⟨-, h, -⟩)
    · cases h
    · obtain rfl : b "f" = y := List.append_cancel_left (as := b "-") h
      exact ⟨by decide, ⟨['f'], by decide, by decide⟩⟩
  have hforcer : Readable .default ⟨.none, b "--" ++ w.force⟩ := by
    rintro y (⟨h, -⟩ | ⟨-, -, h⟩)
    · cases h
    · exact absurd ⟨_, rfl⟩ h
  have hroot : (exProgram (simpleFormatIn w) columns (simpleIn w)).children =
      [(exProgram (simpleFormatIn w) columns (simpleIn w)).children.headD (copyIn w)] ++ (copyIn w) :: [(moveIn w)] := by
    with_unfolding_all rfl
  have hread : Reading .default (copyIn w) s.sel [] []
      ((opts ++ dst :: src :: more).map (Token.mk .none))
      (.accepts ((if forced then [⟨forceIn w, []⟩] else []) ++
        [⟨destinationIn w, [⟨.none, dst⟩]⟩] ++
        [⟨sourcesIn w, (src :: more).map (Token.mk .none)⟩])) s.sel := by
    have hl : more.length + 1 ≤ sizeMax := by simp only [sizeMax]; omega
    rcases hopts with ⟨rfl, rfl⟩ | ⟨rfl | rfl, rfl⟩
    · exact copyIn_reading w s.sel [] [] (by simp) dst src more hd hs hl
    · exact copyIn_reading_forced w hw s.sel _ (.inl rfl) dst src more hd hs hl
    · exact copyIn_reading_forced w hw s.sel _ (.inr rfl) dst src more hd hs hl
  have hnosub : NoSubMode .default (copyIn w) ((opts ++ dst :: src :: more).map (Token.mk .none)) := by
    intro t _ d hd hk
    replace hd : d ∈ [forceIn w, destinationIn w, sourcesIn w] := hd
    simp only [List.mem_cons, List.not_mem_nil, or_false] at hd
    rcases hd with rfl | rfl | rfl <;> cases hk
  have hargs : ([w.copy] ++ opts ++ [dst] ++ src :: more).map (Token.mk .none) =
      [⟨.none, w.copy⟩] ++ (opts ++ dst :: src :: more).map (Token.mk .none) := by simp
  have hv : ProgramReading .default (exProgram (simpleFormatIn w) columns (simpleIn w)) s.sel
      (([w.copy] ++ opts ++ [dst] ++ src :: more).map (Token.mk .none))
      (.answer (.reads (copyIn w) (.accepts ((if forced then [⟨forceIn w, []⟩] else []) ++
        [⟨destinationIn w, [⟨.none, dst⟩]⟩] ++
        [⟨sourcesIn w, (src :: more).map (Token.mk .none)⟩])) s.sel)) := by
    rw [hargs]
    refine .child hroot ?_ (.path (.here (namedMode_of_test (by with_unfolding_all rfl))
      (copy_label hw)) hnosub hread)
    intro d hd a ha
    rw [List.mem_singleton.1 hd] at ha
    obtain ⟨t, rest, cl, h1, h2⟩ := argument_responds (by
      have hk : ((exProgram (simpleFormatIn w) columns (simpleIn w)).children.headD (copyIn w)).kind = .help := by
        with_unfolding_all rfl
      rw [hk]; simp) ha
    cases h1
    exact plain_no_claims (fun h => copy_plain hw (List.IsPrefix.trans (by decide) h)) (copy_plain hw) (by with_unfolding_all rfl)
      (by with_unfolding_all rfl) cl h2
  rw [C88_program .default _ _ _ s (words_program columns hw) (fun _ => ?text) ?len hv]
  · exact copyIn_outcome w dst (src :: more) forced s
  case text =>
    intro x hx
    simp only [List.append_assoc, List.singleton_append, List.mem_cons, List.mem_append] at hx
    rcases hx with (rfl | hx) | rfl | rfl | hx
    · exact hplain _ (copy_plain hw)
    · rcases hopts with ⟨rfl, -⟩ | ⟨rfl | rfl, -⟩
      · cases hx
      · rw [List.mem_singleton.1 hx]; exact hfr
      · rw [List.mem_singleton.1 hx]; exact hforcer
    · exact hplain _ hd
    · exact hplain _ hs
    · exact hmore x hx
  case len =>
    have h0 := word_lengths hw
    have h1 : (opts.map List.length).sum + opts.length ≤ 33 := by
      rcases hopts with ⟨rfl, -⟩ | ⟨rfl | rfl, -⟩
      · decide
      · decide
      · simp only [List.map_cons, List.map_nil, List.sum_cons, List.sum_nil, List.length_append,
          List.length_cons, List.length_nil, show List.length (b "--") = 2 from rfl]
        omega
    simp only [List.map_append, List.map_cons, List.map_nil, List.sum_append, List.sum_cons,
      List.sum_nil, List.length_append, List.length_cons, List.length_nil]
    omega

/-- C91, the example: in every language, the language's word for `copy`, perhaps its word for the
flag, a destination and sources call the router of the copy mode once, with whether the flag was
given, the destination and the sources. -/
theorem C91_copy (columns : Nat) (requested language : Bytes)
    (h : Spoken languages requested language) (opts : List Bytes) (forced : Bool)
    (dst src : Bytes) (more : List Bytes) (s : St)
    (hopts : (opts = [] ∧ forced = false) ∨
      ((opts = [b "-f"] ∨ opts = [b "--" ++ (wordsIn language).force]) ∧ forced = true))
    (hd : ¬ b "-" <+: dst) (hs : ¬ b "-" <+: src)
    (hmore : ∀ x ∈ more, Readable .default ⟨.none, x⟩)
    (hlen : dst.length + src.length + (more.map List.length).sum + more.length + 60 < 2 ^ 63) :
    multiSeen .default languages (exampleIn columns) requested
        ([(wordsIn language).copy] ++ opts ++ [dst] ++ src :: more) s =
      (.returned, { s with calls := s.calls ++
        [⟨10, [.one (.bool forced), .one (.str dst), .many ((src :: more).map .str)]⟩] }) := by
  rw [C91_selected _ _ _ _ _ h]
  unfold rootSeen
  have := words_copy columns (wordsIn language) (wordsIn_mem language) opts forced dst src more s hopts
    hd hs hmore hlen
  unfold exampleIn
  simp only [this]
  rfl

/-- What users see. -/
example : 
    (multiSeen .default languages (exampleIn 80) (isoLocale (b "fr")) [b "copir"] .fresh).1 =
      .parseException (b "Argument inconnu\u00a0: copir. Vouliez-vous dire copier?") ∧
    (multiSeen .default languages (exampleIn 80) (isoLocale (b "ja")) [b "コピ"] .fresh).1 =
      .parseException (b "不明な引数 コピ。 コピー という意味でしたか？") ∧
    (multiSeen .default languages (exampleIn 80) (isoLocale (b "de")) [b "copie"] .fresh).1 =
      .parseException (b "Unknown argument: copie. Did you mean copy?") ∧
    multiSeen .default languages (exampleIn 80) (isoLocale (b "ja")) [b "コピー", b "--強制", b "x", b "y"]
      .fresh = (.returned, ⟨[], [⟨10, [.one (.bool true), .one (.str (b "x")), .many [.str (b "y")]]⟩]⟩) := by
  decide +kernel

end Props

end ArgRouter

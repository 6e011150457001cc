import Verif.Examples.Programs
import Verif.Exc.Format
import Verif.Parse.Languages
import Verif.Tools.Translation

/-!
# The example program in several languages

examples/c++17/simple_ml_gen: the program `simple` in English, French and Japanese. The translations
are in files from which headers are generated (`Tools/Translation`). `simple_ml` has the same names and
texts written out in its source.
-/

namespace ArgRouter.Examples

open ArgRouter Tools

/-- examples/resources/simple_ml_gen/en_GB.toml:1-19. -/
def englishFile : List Bytes := [
  b "# Copyright (C) 2023 by Camden Mannett.",
  b "# Distributed under the Boost Software License, Version 1.0.",
  b "# (See accompanying file LICENSE or copy at https://www.boost.org/LICENSE_1_0.txt)",
  b "",
  b "force = \"force\"",
  b "force_description = \"Force overwrite existing files\"",
  b "destination = \"DST\"",
  b "destination_description = \"Destination directory\"",
  b "help = \"help\"",
  b "help_description = \"Display this help and exit\"",
  b "program_intro = \"A simple file copier and mover.\"",
  b "program_addendum = \"An example program for arg_router.\"",
  b "copy = \"copy\"",
  b "copy_description = \"Copy source files to destination\"",
  b "source = \"SRC\"",
  b "sources_description = \"Source file paths\"",
  b "move = \"move\"",
  b "move_description = \"Move source file to destination\"",
  b "source_description = \"Source file path\""]

/-- examples/resources/simple_ml_gen/fr.toml:1-37. -/
def frenchFile : List Bytes := [
  b "# Copyright (C) 2023 by Camden Mannett.",
  b "# Distributed under the Boost Software License, Version 1.0.",
  b "# (See accompanying file LICENSE or copy at https://www.boost.org/LICENSE_1_0.txt)",
  b "",
  b "force = \"forcer\"",
  b "force_description = \"Forcer l'écrasement des fichiers existants\"",
  b "destination = \"DST\"",
  b "destination_description = \"Répertoire de destination\"",
  b "help = \"aider\"",
  b "help_description = \"Afficher cette aide et quitter\"",
  b "program_intro = \"Un simple copieur et déménageur de fichiers.\"",
  b "program_addendum = \"Un exemple de programme pour arg_router.\"",
  b "copy = \"copier\"",
  b "copy_description = \"Copier les fichiers source vers la destination\"",
  b "source = \"SRC\"",
  b "sources_description = \"Chemins des fichiers sources\"",
  b "move = \"déplacer\"",
  b "move_description = \"Déplacer le fichier source vers la destination\"",
  b "source_description = \"Chemin du fichier source\"",
  b "",
  b "[error_code]",
  b "unknown_argument = \"Argument inconnu\"",
  b "unhandled_arguments = \"Arguments non gérés\"",
  b "argument_has_already_been_set = \"L'argument a déjà été défini\"",
  b "failed_to_parse = \"L'analyse a échoué\"",
  b "no_arguments_passed = \"Aucun argument passé\"",
  b "minimum_value_not_reached = \"Valeur minimale non atteinte\"",
  b "maximum_value_exceeded = \"Valeur maximale dépassée\"",
  b "minimum_count_not_reached = \"Nombre minimum non atteint\"",
  b "maximum_count_exceeded = \"Nombre maximal dépassé\"",
  b "unknown_argument_with_suggestion = \"Argument inconnu : {}. Vouliez-vous dire { }?\"",
  b "mode_requires_arguments = \"Le mode nécessite des arguments\"",
  b "missing_required_argument = \"Argument requis manquant\"",
  b "too_few_values_for_alias = \"Trop peu de valeurs pour l'alias\"",
  b "dependent_argument_missing = \"Argument dépendant manquant (doit être avant le jeton requis sur la ligne de commande)\"",
  b "one_of_selected_type_mismatch = \"Un seul argument d'un \\\"One Of\\\" peut être utilisé à la fois\"",
  b "missing_value_separator = \"Attendu un séparateur de valeur\""]

/-- examples/resources/simple_ml_gen/ja.toml:1-37. -/
def japaneseFile : List Bytes := [
  b "# Copyright (C) 2023 by Camden Mannett.",
  b "# Distributed under the Boost Software License, Version 1.0.",
  b "# (See accompanying file LICENSE or copy at https://www.boost.org/LICENSE_1_0.txt)",
  b "",
  b "force = \"強制\"",
  b "force_description = \"既存のファイルを強制的に上書きする\"",
  b "destination = \"先\"",
  b "destination_description = \"宛先ディレクトリ\"",
  b "help = \"ヘルプ\"",
  b "help_description = \"このヘルプを表示して終了\"",
  b "program_intro = \"ファイルをコピーおよび移動するためのシンプルなプログラム。\"",
  b "program_addendum = \"「arg_router」のサンプルプログラム。\"",
  b "copy = \"コピー\"",
  b "copy_description = \"ソース ファイルを宛先にコピーする\"",
  b "source = \"出典\"",
  b "sources_description = \"ソース ファイルのパス\"",
  b "move = \"移動\"",
  b "move_description = \"ソース ファイルを宛先に移動する\"",
  b "source_description = \"ソース ファイル パス\"",
  b "",
  b "[error_code]",
  b "unknown_argument = \"不明な引数\"",
  b "unhandled_arguments = \"未処理の引数\"",
  b "argument_has_already_been_set = \"引数はすでに設定されています\"",
  b "failed_to_parse = \"解析に失敗しました\"",
  b "no_arguments_passed = \"引数が渡されませんでした\"",
  b "minimum_value_not_reached = \"最小値に達していません\"",
  b "maximum_value_exceeded = \"最大値を超えました\"",
  b "minimum_count_not_reached = \"最小数に達していません\"",
  b "maximum_count_exceeded = \"最大数を超えました\"",
  b "unknown_argument_with_suggestion = \"不明な引数 {}。 { } という意味でしたか？\"",
  b "mode_requires_arguments = \"モードには引数が必要です\"",
  b "missing_required_argument = \"必要な引数がありません\"",
  b "too_few_values_for_alias = \"エイリアス値が少なすぎる\"",
  b "dependent_argument_missing = \"従属引数がありません (コマンドラインで必要なトークンの前に置く必要があります)\"",
  b "one_of_selected_type_mismatch = \"一度に許可される「One Of」引数は1つだけです\"",
  b "missing_value_separator = \"値の区切り文字が必要です\""]

/-- The translations that simple_ml_gen/main.cpp:64-110 makes use of. -/
structure Words where
  force : Bytes
  forceDescription : Bytes
  destination : Bytes
  destinationDescription : Bytes
  help : Bytes
  helpDescription : Bytes
  programIntro : Bytes
  programAddendum : Bytes
  copy : Bytes
  copyDescription : Bytes
  source : Bytes
  sourcesDescription : Bytes
  move : Bytes
  moveDescription : Bytes
  sourceDescription : Bytes
  errors : Translations
  deriving DecidableEq

/-- The C++ string literal `literal`. Simplified: the escapes are those of quotes and backslashes. A
literal in what cmake/translation_generator/translation_generator_script.cmake:67-81 writes. -/
def literalText : Bytes → Bytes
  | 0x22 :: rest => inside rest
  | _ => []
where
  /-- The characters up to the closing quote. -/
  inside : Bytes → Bytes
    | [] => []
    | [_] => []
    | c :: d :: rest => if c = 0x5C then d :: inside rest else c :: inside (d :: rest)

/-- The names of the error codes, exception.hpp:33-63. -/
def errorNames : List (Bytes × ErrorCode) := [
  (b "unknown_argument", .unknown_argument),
  (b "unhandled_arguments", .unhandled_arguments),
  (b "argument_has_already_been_set", .argument_has_already_been_set),
  (b "failed_to_parse", .failed_to_parse),
  (b "no_arguments_passed", .no_arguments_passed),
  (b "minimum_value_not_reached", .minimum_value_not_reached),
  (b "maximum_value_exceeded", .maximum_value_exceeded),
  (b "minimum_count_not_reached", .minimum_count_not_reached),
  (b "maximum_count_exceeded", .maximum_count_exceeded),
  (b "unknown_argument_with_suggestion", .unknown_argument_with_suggestion),
  (b "mode_requires_arguments", .mode_requires_arguments),
  (b "missing_required_argument", .missing_required_argument),
  (b "too_few_values_for_alias", .too_few_values_for_alias),
  (b "dependent_argument_missing", .dependent_argument_missing),
  (b "one_of_selected_type_mismatch", .one_of_selected_type_mismatch),
  (b "missing_value_separator", .missing_value_separator)]

/-- What the members of a class of translations are: the strings of the names (empty if there is no
such member, which does not compile) and the table of errors.
cmake/translation_generator/translation_generator_script.cmake:19-24, 67-81. -/
def wordsOf (names : List (Bytes × Bytes)) (errors : List (Bytes × Bytes)) : Words :=
  let word := fun key => ((names.lookup key).map literalText).getD []
  {
    force := word (b "force"),
    forceDescription := word (b "force_description"),
    destination := word (b "destination"),
    destinationDescription := word (b "destination_description"),
    help := word (b "help"),
    helpDescription := word (b "help_description"),
    programIntro := word (b "program_intro"),
    programAddendum := word (b "program_addendum"),
    copy := word (b "copy"),
    copyDescription := word (b "copy_description"),
    source := word (b "source"),
    sourcesDescription := word (b "sources_description"),
    move := word (b "move"),
    moveDescription := word (b "move_description"),
    sourceDescription := word (b "source_description"),
    errors := errors.filterMap fun e => (errorNames.lookup e.1).map fun c => (c.num, literalText e.2) }

/-- The words in examples/resources/simple_ml_gen/en_GB.toml:1-19. -/
def english : Words where
  force := b "force"
  forceDescription := b "Force overwrite existing files"
  destination := b "DST"
  destinationDescription := b "Destination directory"
  help := b "help"
  helpDescription := b "Display this help and exit"
  programIntro := b "A simple file copier and mover."
  programAddendum := b "An example program for arg_router."
  copy := b "copy"
  copyDescription := b "Copy source files to destination"
  source := b "SRC"
  sourcesDescription := b "Source file paths"
  move := b "move"
  moveDescription := b "Move source file to destination"
  sourceDescription := b "Source file path"
  errors := []

/-- The words in examples/resources/simple_ml_gen/fr.toml:1-37. -/
def french : Words where
  force := b "forcer"
  forceDescription := b "Forcer l'écrasement des fichiers existants"
  destination := b "DST"
  destinationDescription := b "Répertoire de destination"
  help := b "aider"
  helpDescription := b "Afficher cette aide et quitter"
  programIntro := b "Un simple copieur et déménageur de fichiers."
  programAddendum := b "Un exemple de programme pour arg_router."
  copy := b "copier"
  copyDescription := b "Copier les fichiers source vers la destination"
  source := b "SRC"
  sourcesDescription := b "Chemins des fichiers sources"
  move := b "déplacer"
  moveDescription := b "Déplacer le fichier source vers la destination"
  sourceDescription := b "Chemin du fichier source"
  errors := [(ErrorCode.num .unknown_argument, b "Argument inconnu"),
    (ErrorCode.num .unhandled_arguments, b "Arguments non gérés"),
    (ErrorCode.num .argument_has_already_been_set, b "L'argument a déjà été défini"),
    (ErrorCode.num .failed_to_parse, b "L'analyse a échoué"),
    (ErrorCode.num .no_arguments_passed, b "Aucun argument passé"),
    (ErrorCode.num .minimum_value_not_reached, b "Valeur minimale non atteinte"),
    (ErrorCode.num .maximum_value_exceeded, b "Valeur maximale dépassée"),
    (ErrorCode.num .minimum_count_not_reached, b "Nombre minimum non atteint"),
    (ErrorCode.num .maximum_count_exceeded, b "Nombre maximal dépassé"),
    (ErrorCode.num .unknown_argument_with_suggestion, b "Argument inconnu : {}. Vouliez-vous dire { }?"),
    (ErrorCode.num .mode_requires_arguments, b "Le mode nécessite des arguments"),
    (ErrorCode.num .missing_required_argument, b "Argument requis manquant"),
    (ErrorCode.num .too_few_values_for_alias, b "Trop peu de valeurs pour l'alias"),
    (ErrorCode.num .dependent_argument_missing, b "Argument dépendant manquant (doit être avant le jeton requis sur la ligne de commande)"),
    (ErrorCode.num .one_of_selected_type_mismatch, b "Un seul argument d'un \"One Of\" peut être utilisé à la fois"),
    (ErrorCode.num .missing_value_separator, b "Attendu un séparateur de valeur")]

/-- The words in examples/resources/simple_ml_gen/ja.toml:1-37. -/
def japanese : Words where
  force := b "強制"
  forceDescription := b "既存のファイルを強制的に上書きする"
  destination := b "先"
  destinationDescription := b "宛先ディレクトリ"
  help := b "ヘルプ"
  helpDescription := b "このヘルプを表示して終了"
  programIntro := b "ファイルをコピーおよび移動するためのシンプルなプログラム。"
  programAddendum := b "「arg_router」のサンプルプログラム。"
  copy := b "コピー"
  copyDescription := b "ソース ファイルを宛先にコピーする"
  source := b "出典"
  sourcesDescription := b "ソース ファイルのパス"
  move := b "移動"
  moveDescription := b "ソース ファイルを宛先に移動する"
  sourceDescription := b "ソース ファイル パス"
  errors := [(ErrorCode.num .unknown_argument, b "不明な引数"),
    (ErrorCode.num .unhandled_arguments, b "未処理の引数"),
    (ErrorCode.num .argument_has_already_been_set, b "引数はすでに設定されています"),
    (ErrorCode.num .failed_to_parse, b "解析に失敗しました"),
    (ErrorCode.num .no_arguments_passed, b "引数が渡されませんでした"),
    (ErrorCode.num .minimum_value_not_reached, b "最小値に達していません"),
    (ErrorCode.num .maximum_value_exceeded, b "最大値を超えました"),
    (ErrorCode.num .minimum_count_not_reached, b "最小数に達していません"),
    (ErrorCode.num .maximum_count_exceeded, b "最大数を超えました"),
    (ErrorCode.num .unknown_argument_with_suggestion, b "不明な引数 {}。 { } という意味でしたか？"),
    (ErrorCode.num .mode_requires_arguments, b "モードには引数が必要です"),
    (ErrorCode.num .missing_required_argument, b "必要な引数がありません"),
    (ErrorCode.num .too_few_values_for_alias, b "エイリアス値が少なすぎる"),
    (ErrorCode.num .dependent_argument_missing, b "従属引数がありません (コマンドラインで必要なトークンの前に置く必要があります)"),
    (ErrorCode.num .one_of_selected_type_mismatch, b "一度に許可される「One Of」引数は1つだけです"),
    (ErrorCode.num .missing_value_separator, b "値の区切り文字が必要です")]

/-- The tree of the program in a language, simple_ml_gen/main.cpp:69-109; it is `simple` with other
words. -/
def simpleIn (w : Words) : Node :=
  let force := fun uid => mkFlag .default uid 11
    [.longName w.force, .description w.forceDescription, .shortName (b "f")]
  let destination := fun uid => mkPositional uid 12 path
    [.displayName w.destination, .description w.destinationDescription, .required, .minMaxCount 1 1]
  mkRoot 1 1
    [mkHelp 2 2 [.longName w.help, .description w.helpDescription, .shortName (b "h")],
     mkMode 10 10 [.noneName w.copy, .description w.copyDescription, .router]
       [force 11, destination 12,
        mkPositional 13 13 (listOf path) [.displayName w.source, .description w.sourcesDescription,
          .required, .minMaxCount 1 sizeMax]],
     mkMode 14 14 [.noneName w.move, .description w.moveDescription, .router]
       [force 15, destination 16,
        mkPositional 17 17 path [.displayName w.source, .description w.sourceDescription,
          .required, .minMaxCount 1 1]]]

/-- The help formatter of simple_ml_gen/main.cpp:79-88. -/
def simpleFormatIn (w : Words) : Formatter :=
  ⟨formatRowColour, ⟨4, 8, some (b "simple"), some (b "v0.1"), some w.programIntro,
    some w.programAddendum, true⟩⟩

/-- The languages of simple_ml_gen/main.cpp:64. -/
def languages : List Bytes := [b "en_GB", b "fr", b "ja"]

/-- `translation<ID>` for the languages. multi_lang/root.hpp:115-129. -/
def wordsIn (language : Bytes) : Words :=
  if language = b "fr" then french else if language = b "ja" then japanese else english

end ArgRouter.Examples

import Verif.Tools.Tables
import Verif.Spec.Tables
import Verif.Props.Tables

/-!
# Lemmas about the generator of Unicode tables
-/

namespace ArgRouter.Tools.Tables

open ArgRouter.Utf8 ArgRouter.Spec.Ucd

/-! ## Characters -/

theorem hexChar (capital : Bool) (d : Nat) (h : d < 16) :
    let c := hexDigit capital d
    isSpace c = false ∧ c ≠ ';' ∧ c ≠ '#' ∧ c ≠ '.' ∧ c ≠ '\n' ∧ hexVal c = some d := by
  revert d
  cases capital <;> decide

theorem nameChar {c : Char} (h : c.isAlphanum = true ∨ c = '_') :
    isSpace c = false ∧ c ≠ ';' ∧ c ≠ '#' ∧ c ≠ '\n' := by
  rcases h with h | rfl
  · have hr : (48 ≤ c.toNat ∧ c.toNat ≤ 57) ∨ (65 ≤ c.toNat ∧ c.toNat ≤ 90) ∨
        (97 ≤ c.toNat ∧ c.toNat ≤ 122) := by
      simp only [Char.isAlphanum, Char.isAlpha, Char.isUpper, Char.isLower, Char.isDigit,
        Bool.or_eq_true, Bool.and_eq_true, decide_eq_true_eq, UInt32.le_iff_toNat_le] at h
      simp only [Char.toNat]
      rcases h with (h | h) | h
      · exact .inr (.inl h)
      · exact .inr (.inr h)
      · exact .inl h
    refine ⟨?_, ?_, ?_, ?_⟩
    · unfold isSpace
      simp only [Bool.or_eq_false_iff, Bool.and_eq_false_iff, decide_eq_false_iff_not, beq_eq_false_iff_ne]
      omega
    all_goals
      rintro rfl
      revert hr
      decide
  · decide

theorem blank_space {s : List Char} (h : Blank s) : ∀ c ∈ s, isSpace c = true ∧ c ≠ ';' ∧ c ≠ '#' ∧
    c ≠ '\n' := by
  intro c hc
  rcases h c hc with rfl | rfl | rfl <;> decide

/-! ## Strings -/

theorem dropWhile_blank {p : Char → Bool} {w : Str} (hw : ∀ c ∈ w, p c = true) (s : Str) :
    (w ++ s).dropWhile p = s.dropWhile p := by
  induction w with
  | nil => rfl
  | cons c w ih =>
    rw [List.cons_append, List.dropWhile_cons, if_pos (hw c List.mem_cons_self)]
    exact ih fun x hx => hw x (List.mem_cons_of_mem _ hx)

theorem rstrip_append (a : Str) {c : Char} (hc : isSpace c = false) (s : Str) :
    rstrip (a ++ c :: s) = a ++ c :: rstrip s := by
  unfold rstrip
  rw [List.reverse_append, List.reverse_cons, List.append_assoc, List.dropWhile_append]
  split
  · rename_i h
    rw [List.isEmpty_iff] at h
    rw [h, List.singleton_append, List.dropWhile_cons, if_neg (by simp [hc])]
    simp
  · simp

theorem rstrip_blank {w : Str} (hw : ∀ c ∈ w, isSpace c = true) : rstrip w = [] := by
  unfold rstrip
  have := dropWhile_blank (p := isSpace) (w := w.reverse) (fun c hc => hw c (List.mem_reverse.1 hc)) []
  rw [List.append_nil] at this
  rw [this]
  rfl

theorem strip_blank {w : Str} (hw : ∀ c ∈ w, isSpace c = true) : strip w = [] := by
  have := dropWhile_blank (p := isSpace) hw []
  rw [List.append_nil] at this
  unfold strip
  rw [this]
  rfl

theorem strip_cons {w : Str} (hw : ∀ c ∈ w, isSpace c = true) {c : Char} (hc : isSpace c = false)
    (s : Str) : strip (w ++ c :: s) = c :: rstrip s := by
  unfold strip
  rw [dropWhile_blank hw, List.dropWhile_cons, if_neg (by simp [hc])]
  exact rstrip_append [] hc s

theorem rstrip_trailing {s w : Str} (hs : ∀ c ∈ s, isSpace c = false)
    (hw : ∀ c ∈ w, isSpace c = true) : rstrip (s ++ w) = s := by
  cases s with
  | nil => exact rstrip_blank hw
  | cons c s =>
    obtain ⟨a, x, hx⟩ : ∃ a x, c :: s = a ++ [x] :=
      ⟨_, _, (List.dropLast_concat_getLast (List.cons_ne_nil c s)).symm⟩
    rw [hx, List.append_assoc, List.singleton_append, rstrip_append a, rstrip_blank hw]
    exact hs x (by rw [hx]; simp)

theorem strip_core {w s w' : Str} (hw : ∀ c ∈ w, isSpace c = true) (hs : ∀ c ∈ s, isSpace c = false)
    (hw' : ∀ c ∈ w', isSpace c = true) : strip (w ++ s ++ w') = s := by
  cases s with
  | nil =>
    rw [List.append_nil]
    refine strip_blank fun c hc => ?_
    rcases List.mem_append.1 hc with h | h
    · exact hw c h
    · exact hw' c h
  | cons c s =>
    rw [List.append_assoc, List.cons_append, strip_cons hw (hs c List.mem_cons_self),
      rstrip_trailing (fun x hx => hs x (List.mem_cons_of_mem _ hx)) hw']

theorem strip_plain {s : Str} (hs : ∀ c ∈ s, isSpace c = false) : strip s = s := by
  have := strip_core (w := []) (w' := []) (fun _ h => by cases h) hs (fun _ h => by cases h)
  simpa using this

theorem find_some {c : Char} {a : Str} (ha : ∀ x ∈ a, x ≠ c) (s : Str) :
    find c (a ++ c :: s) = some a.length := by
  unfold find
  induction a with
  | nil => simp [List.findIdx?_cons]
  | cons x a ih =>
    have hx := ha x List.mem_cons_self
    rw [List.cons_append, List.findIdx?_cons, if_neg (by simpa using hx),
      ih fun y hy => ha y (List.mem_cons_of_mem _ hy)]
    rfl

theorem find_none {c : Char} {a : Str} (ha : ∀ x ∈ a, x ≠ c) : find c a = none := by
  unfold find
  rw [List.findIdx?_eq_none_iff]
  intro x hx
  simpa using ha x hx

theorem divider_none {s : Str} (hs : ∀ c ∈ s, c ≠ '.') : findDivider s = none := by
  induction s with
  | nil => rfl
  | cons c s ih =>
    rw [findDivider, if_neg, ih fun x hx => hs x (List.mem_cons_of_mem _ hx)]
    · rfl
    · have := hs c List.mem_cons_self
      simp [List.isPrefixOf]
      intro h
      exact absurd h.symm this

theorem divider_some {s : Str} (hs : ∀ c ∈ s, c ≠ '.') (t : Str) :
    findDivider (s ++ '.' :: '.' :: t) = some s.length := by
  induction s with
  | nil => simp [findDivider, List.isPrefixOf]
  | cons c s ih =>
    rw [List.cons_append, findDivider, if_neg, ih fun x hx => hs x (List.mem_cons_of_mem _ hx)]
    · rfl
    · have := hs c List.mem_cons_self
      simp [List.isPrefixOf]
      intro h
      exact absurd h.symm this

/-! ## Numbers -/

theorem hex_chars {s : Str} {n : Nat} (h : IsHex s n) : ∀ c ∈ s, isSpace c = false ∧ c ≠ ';' ∧
    c ≠ '#' ∧ c ≠ '.' ∧ c ≠ '\n' := by
  obtain ⟨-, ds, hd, rfl, -⟩ := h
  intro c hc
  obtain ⟨d, hd', rfl⟩ := List.mem_map.1 hc
  obtain ⟨h1, h2, h3, h4, h5, -⟩ := hexChar d.1 d.2 (hd d hd')
  exact ⟨h1, h2, h3, h4, h5⟩

theorem int16_hex {s : Str} {n : Nat} (h : IsHex s n) : int16 s = some n := by
  unfold int16
  rw [strip_plain fun c hc => (hex_chars h c hc).1]
  obtain ⟨hne, ds, hd, rfl, rfl⟩ := h
  dsimp only
  rw [if_neg (by simpa using hne), List.foldl_map]
  generalize 0 = a
  clear hne
  induction ds generalizing a with
  | nil => rfl
  | cons d ds ih =>
    have := (hexChar d.1 d.2 (hd d List.mem_cons_self)).2.2.2.2.2
    rw [List.foldl_cons, List.foldl_cons, ← ih (fun x hx => hd x (List.mem_cons_of_mem _ hx))]
    rw [Option.bind_some, this, Option.map_some, Nat.mul_comm]

theorem range_chars {s : Str} {a z : Nat} (h : IsRange s a z) :
    s ≠ [] ∧ ∀ c ∈ s, isSpace c = false ∧ c ≠ ';' ∧ c ≠ '#' ∧ c ≠ '\n' := by
  rcases h with ⟨h, -⟩ | ⟨s1, s2, rfl, h1, h2⟩
  · refine ⟨h.1, fun c hc => ?_⟩
    obtain ⟨x1, x2, x3, -, x4⟩ := hex_chars h c hc
    exact ⟨x1, x2, x3, x4⟩
  · refine ⟨by simp, fun c hc => ?_⟩
    rcases List.mem_append.1 hc with h | h
    · rcases List.mem_append.1 h with h | h
      · obtain ⟨x1, x2, x3, -, x4⟩ := hex_chars h1 c h
        exact ⟨x1, x2, x3, x4⟩
      · have : c = '.' := by simpa using h
        subst this
        decide
    · obtain ⟨x1, x2, x3, -, x4⟩ := hex_chars h2 c h
      exact ⟨x1, x2, x3, x4⟩

theorem codePoints_range {r w rest : Str} {a z : Nat} (h : IsRange r a z)
    (hw : ∀ c ∈ w, isSpace c = true) :
    codePoints (r ++ w).length (r ++ w ++ rest) = some (a, z) := by
  unfold codePoints
  rw [List.take_left]
  have hs : strip (r ++ w) = r :=
    strip_core (w := []) (fun _ h => by cases h) (fun c hc => ((range_chars h).2 c hc).1) hw
  rw [hs]
  dsimp only
  rcases h with ⟨h, rfl⟩ | ⟨s1, s2, rfl, h1, h2⟩
  · rw [divider_none fun c hc => (hex_chars h c hc).2.2.2.1]
    dsimp only
    rw [int16_hex h]
    rfl
  · have e : s1 ++ "..".toList ++ s2 = s1 ++ '.' :: '.' :: s2 := by simp
    rw [e, divider_some fun c hc => (hex_chars h1 c hc).2.2.2.1]
    dsimp only
    rw [List.take_left, int16_hex h1]
    have : (s1 ++ '.' :: '.' :: s2).drop (s1.length + 2) = s2 := by
      rw [← List.drop_drop, List.drop_left]
      rfl
    rw [this, int16_hex h2]
    rfl

/-! ## Lines -/

/-- The parts of an entry after stripping. -/
theorem entry_strip {w0 r w1 w2 n w3 t : Str} {a z : Nat} {cat : Option String} (h0 : Blank w0)
    (h3 : Blank w3) (hr : IsRange r a z) (hn : IsName n) (ht : IsRest t cat) :
    ∃ rest, strip (w0 ++ r ++ w1 ++ ';' :: (w2 ++ n ++ w3 ++ t) ++ ['\n']) =
        r ++ w1 ++ ';' :: (w2 ++ n ++ rest) ∧
      ((rest = [] ∧ cat = none) ∨ ∃ t', rest = w3 ++ '#' :: t' ∧
        ∀ s, cat = some s → ∃ x, s.length = 2 ∧ t' = ' ' :: (s.toList ++ x)) := by
  obtain ⟨c, r', rfl⟩ : ∃ c r', r = c :: r' := by
    cases r with
    | nil => exact absurd rfl (range_chars hr).1
    | cons c r' => exact ⟨c, r', rfl⟩
  have hc := ((range_chars hr).2 c List.mem_cons_self).1
  obtain ⟨n', y, rfl⟩ : ∃ n' y, n = n' ++ [y] :=
    ⟨_, _, (List.dropLast_concat_getLast hn.1).symm⟩
  have hy := (nameChar (hn.2 y (by simp))).1
  have e : w0 ++ (c :: r') ++ w1 ++ ';' :: (w2 ++ (n' ++ [y]) ++ w3 ++ t) ++ ['\n'] =
      w0 ++ c :: ((r' ++ w1 ++ ';' :: (w2 ++ n')) ++ y :: (w3 ++ (t ++ ['\n']))) := by simp
  rw [e, strip_cons (fun c hc => (blank_space h0 c hc).1) hc, rstrip_append _ hy]
  have hw3 : ∀ c ∈ w3, isSpace c = true := fun c hc => (blank_space h3 c hc).1
  refine ⟨rstrip (w3 ++ (t ++ ['\n'])), by simp, ?_⟩
  cases ht with
  | nothing =>
    refine .inl ⟨rstrip_blank fun c hc => ?_, rfl⟩
    rcases List.mem_append.1 hc with h | h
    · exact hw3 c h
    · have : c = '\n' := by simpa using h
      subst this
      decide
  | comment hs =>
    exact .inr ⟨_, by rw [List.cons_append, rstrip_append _ (by decide)], fun s h => by cases h⟩
  | category hx hy hs =>
    rename_i x y s
    refine .inr ⟨_, by rw [List.cons_append, rstrip_append _ (by decide)], fun s' h => ?_⟩
    cases h
    refine ⟨rstrip (s ++ ['\n']), by simp, ?_⟩
    have hy' : isSpace y = false := (nameChar (.inl (by simp [Char.isAlphanum, hy]))).1
    have := rstrip_append [' ', x] hy' (s ++ ['\n'])
    simpa using this

theorem abbreviation {r w1 w2 n rest : Str} {a z : Nat} (hr : IsRange r a z) (h1 : Blank w1)
    (h2 : Blank w2) (hn : IsName n)
    (hrest : rest = [] ∨ ∃ w3 t, Blank w3 ∧ rest = w3 ++ '#' :: t) :
    getAbbreviation (r ++ w1 ++ ';' :: (w2 ++ n ++ rest)) = some (some ((r ++ w1).length, n)) := by
  obtain ⟨hne, hrc⟩ := range_chars hr
  have hsc : find ';' (r ++ w1 ++ ';' :: (w2 ++ n ++ rest)) = some (r ++ w1).length := by
    refine find_some (fun x hx => ?_) _
    rcases List.mem_append.1 hx with h | h
    · exact (hrc x h).2.1
    · exact (blank_space h1 x h).2.1
  unfold getAbbreviation
  rw [if_neg]
  · rw [hsc]
    dsimp only
    congr 3
    have hdrop : (r ++ w1 ++ ';' :: (w2 ++ n ++ rest)).drop (r ++ w1).length =
        ';' :: (w2 ++ n ++ rest) := List.drop_left
    have hno : ∀ x ∈ ';' :: (w2 ++ n), x ≠ '#' := by
      intro x hx
      rcases List.mem_cons.1 hx with rfl | hx
      · decide
      · rcases List.mem_append.1 hx with h | h
        · exact (blank_space h2 x h).2.2.1
        · exact (nameChar (hn.2 x h)).2.2.1
    have hnames : ∀ c ∈ n, isSpace c = false := fun c hc => (nameChar (hn.2 c hc)).1
    have hsp2 : ∀ c ∈ w2, isSpace c = true := fun c hc => (blank_space h2 c hc).1
    unfold findFrom
    rw [hdrop]
    rcases hrest with rfl | ⟨w3, t, h3, rfl⟩
    · rw [List.append_nil, find_none hno]
      simp only [Option.map_none, Option.getD_none, List.take_length]
      rw [← List.drop_drop, List.drop_left, List.drop_succ_cons, List.drop_zero]
      have := strip_core hsp2 hnames (w' := []) (fun _ h => by cases h)
      simpa using this
    · have hno3 : ∀ x ∈ ';' :: (w2 ++ n) ++ w3, x ≠ '#' := by
        intro x hx
        rcases List.mem_append.1 hx with h | h
        · exact hno x h
        · exact (blank_space h3 x h).2.2.1
      have e : ';' :: (w2 ++ n ++ (w3 ++ '#' :: t)) = (';' :: (w2 ++ n) ++ w3) ++ '#' :: t := by simp
      rw [e, find_some hno3]
      simp only [Option.map_some, Option.getD_some]
      rw [List.take_append, List.take_of_length_le (by omega), Nat.add_sub_cancel, List.take_left,
        ← List.drop_drop, List.drop_left, List.cons_append, List.drop_succ_cons,
        List.drop_zero]
      exact strip_core hsp2 hnames fun c hc => (blank_space h3 c hc).1
  · cases r with
    | nil => exact absurd rfl hne
    | cons c r =>
      have := (hrc c List.mem_cons_self).2.2.1
      simpa using this

/-- What the loops make of a line. -/
theorem line_cases {l : Str} {e : Option Entry} (h : IsLine l e) :
    (e = none ∧ getAbbreviation (strip (l ++ ['\n'])) = some none) ∨
    ∃ en line sc, e = some en ∧ strip (l ++ ['\n']) = line ∧
      getAbbreviation line = some (some (sc, en.name.toList)) ∧
      codePoints sc line = some (en.first, en.last) ∧
      ((en.category = none) ∨ ∃ c s, en.category = some s ∧ findFrom '#' sc line = some c ∧
        (line.take (c + 4)).drop (c + 2) = s.toList) := by
  cases h with
  | blank hb =>
    refine .inl ⟨rfl, ?_⟩
    rw [strip_blank]
    · rfl
    · intro c hc
      rcases List.mem_append.1 hc with h | h
      · exact (blank_space hb c h).1
      · have : c = '\n' := by simpa using h
        subst this
        decide
  | comment hw hs =>
    refine .inl ⟨rfl, ?_⟩
    rw [List.append_assoc, List.cons_append, strip_cons (fun c hc => (blank_space hw c hc).1) (by decide)]
    rfl
  | entry h0 h1 h2 h3 hr hn hne ht =>
    rename_i w0 r w1 w2 n w3 t en
    obtain ⟨rest, hs, hrest⟩ := entry_strip (w1 := w1) (w2 := w2) h0 h3 hr hn ht
    refine .inr ⟨en, _, (r ++ w1).length, rfl, hs, ?_, ?_, ?_⟩
    · rw [← hne]
      refine abbreviation hr h1 h2 hn ?_
      rcases hrest with ⟨h, -⟩ | ⟨t', h, -⟩
      · exact .inl h
      · exact .inr ⟨w3, t', h3, h⟩
    · exact codePoints_range hr fun c hc => (blank_space h1 c hc).1
    · rcases hrest with ⟨-, h⟩ | ⟨t', rfl, hcat⟩
      · exact .inl h
      · cases hc : en.category with
        | none => exact .inl rfl
        | some s =>
          obtain ⟨x, hl, rfl⟩ := hcat s hc
          refine .inr ⟨(r ++ w1).length + (';' :: (w2 ++ n) ++ w3).length, s, rfl, ?_, ?_⟩
          · unfold findFrom
            rw [List.drop_left]
            have e : ';' :: (w2 ++ n ++ (w3 ++ '#' :: ' ' :: (s.toList ++ x))) =
                (';' :: (w2 ++ n) ++ w3) ++ '#' :: ' ' :: (s.toList ++ x) := by simp
            rw [e, find_some]
            · rw [Option.map_some, Nat.add_comm]
            · intro x hx
              rcases List.mem_append.1 hx with h | h
              · rcases List.mem_cons.1 h with rfl | h
                · decide
                · rcases List.mem_append.1 h with h | h
                  · exact (blank_space h2 x h).2.2.1
                  · exact (nameChar (hn.2 x h)).2.2.1
              · exact (blank_space h3 x h).2.2.1
          · have e : r ++ w1 ++ ';' :: (w2 ++ n ++ (w3 ++ '#' :: ' ' :: (s.toList ++ x))) =
                (r ++ w1 ++ (';' :: (w2 ++ n) ++ w3)) ++ ('#' :: ' ' :: s.toList) ++ x := by simp
            have hlen : s.toList.length = 2 := by rw [String.length_toList, hl]
            rw [e, ← List.length_append]
            generalize r ++ w1 ++ (';' :: (w2 ++ n) ++ w3) = pre
            have h4 : pre.length + 4 = (pre ++ '#' :: ' ' :: s.toList).length := by
              simp only [List.length_append, List.length_cons, hlen]
            rw [h4, List.take_left, ← List.drop_drop, List.drop_left]
            rfl

theorem line_newline {l : Str} {e : Option Entry} (h : IsLine l e) : '\n' ∉ l := by
  have hb : ∀ {w}, Blank w → '\n' ∉ w := fun hw hm => (blank_space hw _ hm).2.2.2 rfl
  cases h with
  | blank h => exact hb h
  | comment hw hs =>
    intro hm
    rcases List.mem_append.1 hm with h | h
    · exact hb hw h
    · rcases List.mem_cons.1 h with h | h
      · cases h
      · exact hs h
  | entry h0 h1 h2 h3 hr hn hne ht =>
    intro hm
    simp only [List.mem_append, List.mem_cons] at hm
    rcases hm with ((h | h) | h) | h | ((h | h) | h) | h
    · exact hb h0 h
    · exact ((range_chars hr).2 _ h).2.2.2 rfl
    · exact hb h1 h
    · cases h
    · exact hb h2 h
    · exact (nameChar (hn.2 _ h)).2.2.2 rfl
    · exact hb h3 h
    · rename_i e
      generalize e.category = cat at ht
      cases ht with
      | nothing => cases h
      | comment hs =>
        rcases List.mem_cons.1 h with h | h
        · cases h
        · exact hs h
      | category hx hy hs =>
        simp only [List.mem_cons] at h
        rcases h with h | h | h | h | h
        · cases h
        · cases h
        · subst h; revert hx; decide
        · subst h; revert hy; decide
        · exact hs h

theorem lines_cons {l : Str} (hl : '\n' ∉ l) (acc rest : Str) :
    lines acc (l ++ '\n' :: rest) = (acc ++ l ++ ['\n']) :: lines [] rest := by
  induction l generalizing acc with
  | nil => simp [lines]
  | cons c l ih =>
    have hc : c ≠ '\n' := fun h => hl (by simp [h])
    rw [List.cons_append, lines, if_neg hc, ih fun h => hl (List.mem_cons_of_mem _ h)]
    simp

theorem collect_file {α : Type} {f : Str → Option (Option α)} {g : Entry → Option (Option α)}
    (h0 : ∀ l, IsLine l none → f (l ++ ['\n']) = some none) {content : Str} {es : List Entry}
    (hf : IsFile content es) (h1 : ∀ e ∈ es, ∀ l, IsLine l (some e) → f (l ++ ['\n']) = g e) :
    collect f (lines [] content) = collect g es := by
  induction hf with
  | empty => rfl
  | line hl hf ih =>
    rename_i e es
    have ih := ih fun e he => h1 e (List.mem_append_right _ he)
    rw [lines_cons (line_newline hl), List.nil_append, collect]
    cases e with
    | none =>
      rw [h0 _ hl]
      exact ih
    | some e =>
      rw [h1 e (by simp) _ hl, Option.toList_some, List.singleton_append, collect, ih]

theorem collect_file_none {α : Type} {f : Str → Option (Option α)} {e : Entry}
    (h : ∀ l, IsLine l (some e) → f (l ++ ['\n']) = none) {content : Str} {es : List Entry}
    (hf : IsFile content es) (he : e ∈ es) : collect f (lines [] content) = none := by
  induction hf with
  | empty => cases he
  | line hl hf ih =>
    rename_i l rest e' es
    rw [lines_cons (line_newline hl), List.nil_append]
    rcases List.mem_append.1 he with h' | h'
    · cases e' with
      | none => cases h'
      | some x =>
        have : e = x := by simpa using h'
        subst this
        rw [collect, h _ hl]
    · rw [collect]
      split
      · rfl
      · exact ih h'
      · rw [ih h']; rfl

theorem collect_total {α β : Type} {g : β → Option (Option α)} {h : β → Option α} {es : List β}
    (hg : ∀ e ∈ es, g e = some (h e)) : collect g es = some (es.filterMap h) := by
  induction es with
  | nil => rfl
  | cons e es ih =>
    rw [collect, hg e List.mem_cons_self, List.filterMap_cons,
      ih fun x hx => hg x (List.mem_cons_of_mem _ hx)]
    cases h e <;> rfl

theorem collect_none {α β : Type} {g : β → Option (Option α)} {es : List β} {e : β} (he : e ∈ es)
    (hg : g e = none) : collect g es = none := by
  induction es with
  | nil => cases he
  | cons x es ih =>
    rw [collect]
    rcases List.mem_cons.1 he with rfl | he
    · rw [hg]
    · cases g x with
      | none => rfl
      | some y =>
        cases y with
        | none => exact ih he
        | some y => dsimp only; rw [ih he]; rfl

/-! ## The version -/

theorem dropDigits {a : Str} (ha : ∀ c ∈ a, c.isDigit = true) (s : Str) :
    (a ++ '.' :: s).dropWhile Char.isDigit = '.' :: s := by
  rw [dropWhile_blank ha, List.dropWhile_cons, if_neg (by decide)]

theorem headDigit {a : Str} (hne : a ≠ []) (ha : ∀ c ∈ a, c.isDigit = true) (s : Str) :
    (a ++ s).head?.any Char.isDigit = true := by
  cases a with
  | nil => exact absurd rfl hne
  | cons c a => simp [ha c List.mem_cons_self]

theorem version_found {content : Str} (h : HasVersion content) : extractVersion content = some () := by
  obtain ⟨pre, a, b, c, post, rest, rfl, hpre, hpost, hd⟩ := h
  obtain ⟨ha, ha'⟩ := hd a (by simp)
  obtain ⟨hb, hb'⟩ := hd b (by simp)
  obtain ⟨hc, hc'⟩ := hd c (by simp)
  have hdig : ∀ {s : Str}, (∀ d ∈ s, d.isDigit = true) → '\n' ∉ s := by
    intro s hs hm
    exact absurd (hs _ hm) (by decide)
  have hline : '\n' ∉ pre ++ a ++ '.' :: (b ++ '.' :: (c ++ post)) := by
    simp only [List.mem_append, List.mem_cons, not_or]
    exact ⟨⟨hpre, hdig ha'⟩, by decide, hdig hb', by decide, hdig hc', hpost⟩
  unfold extractVersion
  rw [find_some (c := '\n') (fun x hx hxe => hline (hxe ▸ hx))]
  dsimp only
  rw [List.take_left, if_pos]
  have hv : versionHere (a ++ '.' :: (b ++ '.' :: (c ++ post))) = true := by
    unfold versionHere
    dsimp only
    rw [dropDigits ha', headDigit ha ha', Bool.true_and]
    simp only []
    rw [dropDigits hb', headDigit hb hb', Bool.true_and]
    simp only []
    exact headDigit hc hc' _
  rw [List.append_assoc]
  clear hline hpre
  induction pre with
  | nil =>
    cases a with
    | nil => exact absurd rfl ha
    | cons x a =>
      rw [List.nil_append, List.cons_append, searchVersion, ← List.cons_append, hv]
      rfl
  | cons x pre ih => rw [List.cons_append, searchVersion, ih, Bool.or_true]

theorem digits_split {s t : Str} (h : s.head?.any Char.isDigit = true)
    (hd : s.dropWhile Char.isDigit = t) :
    ∃ a, s = a ++ t ∧ a ≠ [] ∧ ∀ d ∈ a, d.isDigit = true := by
  refine ⟨s.takeWhile Char.isDigit, ?_, ?_, ?_⟩
  · rw [← hd, List.takeWhile_append_dropWhile]
  · cases s with
    | nil => cases h
    | cons x s =>
      have hx : x.isDigit = true := by simpa using h
      rw [List.takeWhile_cons, if_pos hx]
      exact List.cons_ne_nil _ _
  · intro d hm
    exact List.all_eq_true.1 List.all_takeWhile d hm

theorem versionHere_split {s : Str} (h : versionHere s = true) :
    ∃ a b c post : Str, s = a ++ '.' :: (b ++ '.' :: (c ++ post)) ∧
      ∀ t ∈ [a, b, c], t ≠ [] ∧ ∀ d ∈ t, d.isDigit = true := by
  unfold versionHere at h
  dsimp only at h
  obtain ⟨h1, h⟩ := Bool.and_eq_true_iff.1 h
  split at h
  · rename_i s1 e1
    obtain ⟨h2, h⟩ := Bool.and_eq_true_iff.1 h
    split at h
    · rename_i s2 e2
      obtain ⟨a, ea, ha⟩ := digits_split h1 e1
      obtain ⟨b, eb, hb⟩ := digits_split h2 e2
      obtain ⟨c, ec, hc⟩ := digits_split h rfl
      refine ⟨a, b, c, _, by rw [ea, eb, ← ec], ?_⟩
      intro t ht
      simp only [List.mem_cons, List.not_mem_nil, or_false] at ht
      rcases ht with rfl | rfl | rfl
      · exact ha
      · exact hb
      · exact hc
    · cases h
  · cases h

theorem searchVersion_split {s : Str} (h : searchVersion s = true) :
    ∃ pre a b c post : Str, s = pre ++ a ++ '.' :: (b ++ '.' :: (c ++ post)) ∧
      ∀ t ∈ [a, b, c], t ≠ [] ∧ ∀ d ∈ t, d.isDigit = true := by
  induction s with
  | nil => cases h
  | cons x s ih =>
    rw [searchVersion, Bool.or_eq_true] at h
    rcases h with h | h
    · obtain ⟨a, b, c, post, e, hd⟩ := versionHere_split h
      exact ⟨[], a, b, c, post, by rw [e]; rfl, hd⟩
    · obtain ⟨pre, a, b, c, post, e, hd⟩ := ih h
      exact ⟨x :: pre, a, b, c, post, by rw [e]; rfl, hd⟩

/-- The version is found only where there is one. -/
theorem version_only {content : Str} (h : extractVersion content = some ()) : HasVersion content := by
  unfold extractVersion at h
  split at h
  · cases h
  · rename_i e he
    split at h
    · rename_i hs
      unfold find at he
      rw [List.findIdx?_eq_some_iff_getElem] at he
      obtain ⟨hlt, h1, h2⟩ := he
      obtain ⟨pre, a, b, c, post, heq, hd⟩ := searchVersion_split hs
      have hline : '\n' ∉ content.take e := by
        intro hm
        obtain ⟨i, hi, hg⟩ := List.getElem_of_mem hm
        have hi' : i < e := by
          have := hi
          rw [List.length_take] at this
          omega
        rw [List.getElem_take] at hg
        exact absurd (beq_iff_eq.2 hg) (h2 i hi')
      refine ⟨pre, a, b, c, post, content.drop (e + 1), ?_, ?_, ?_, hd⟩
      · rw [← heq, ← beq_iff_eq.1 h1, List.getElem_cons_drop, List.take_append_drop]
      · intro hm
        exact hline (by rw [heq]; simp [hm])
      · intro hm
        exact hline (by rw [heq]; simp [hm])
    · cases h

/-! ## Sorting -/

theorem insertBy_perm {α : Type} (key : α → Nat) (x : α) (l : List α) :
    (insertBy key x l).Perm (x :: l) := by
  induction l with
  | nil => exact List.Perm.refl _
  | cons y l ih =>
    rw [insertBy]
    split
    · exact List.Perm.refl _
    · exact (List.Perm.cons y ih).trans (List.Perm.swap x y l)

theorem sortBy_perm {α : Type} (key : α → Nat) (l : List α) : (sortBy key l).Perm l := by
  induction l with
  | nil => exact List.Perm.refl _
  | cons x l ih => exact (insertBy_perm key x _).trans (List.Perm.cons x ih)

theorem insertBy_sorted {α : Type} (key : α → Nat) (x : α) (l : List α)
    (h : l.Pairwise fun a b => key a ≤ key b) :
    (insertBy key x l).Pairwise fun a b => key a ≤ key b := by
  induction l with
  | nil => exact List.pairwise_singleton _ _
  | cons y l ih =>
    rw [List.pairwise_cons] at h
    rw [insertBy]
    split
    · rename_i hxy
      refine List.pairwise_cons.2 ⟨fun z hz => ?_, List.pairwise_cons.2 h⟩
      rcases List.mem_cons.1 hz with rfl | hz
      · exact hxy
      · exact Nat.le_trans hxy (h.1 z hz)
    · rename_i hxy
      refine List.pairwise_cons.2 ⟨fun z hz => ?_, ih h.2⟩
      rcases List.mem_cons.1 ((insertBy_perm key x l).mem_iff.1 hz) with rfl | hz
      · omega
      · exact h.1 z hz

theorem sortBy_sorted {α : Type} (key : α → Nat) (l : List α) :
    (sortBy key l).Pairwise fun a b => key a ≤ key b := by
  induction l with
  | nil => exact List.Pairwise.nil
  | cons x l ih => exact insertBy_sorted key x _ ih

/-- Sorting disjoint ranges by their first code points puts them in order. -/
theorem sortBy_disjoint {α : Type} (first last : α → Nat) (l : List α)
    (h1 : ∀ x ∈ l, first x ≤ last x)
    (h2 : l.Pairwise fun a b => last a < first b ∨ last b < first a) :
    (sortBy first l).Pairwise fun a b => last a < first b := by
  have hp := sortBy_perm first l
  have h3 : (sortBy first l).Pairwise fun a b => last a < first b ∨ last b < first a :=
    (hp.pairwise_iff fun {a b} h => h.symm).2 h2
  have h4 := h3.and (sortBy_sorted first l)
  refine List.Pairwise.imp_of_mem (fun {a b} ha hb h => ?_) h4
  have hb' := h1 b (hp.mem_iff.1 hb)
  omega

/-! ## Output -/

/-- The digits of a number, least significant first. -/
def digits16 : Nat → Nat → List Nat
  | 0, _ => []
  | fuel + 1, n => n % 16 :: (if n / 16 = 0 then [] else digits16 fuel (n / 16))

theorem hexDigits_eq (fuel n : Nat) : hexDigits fuel n =
    (digits16 fuel n).map fun d => "0123456789ABCDEF".toList.getD d '0' := by
  induction fuel generalizing n with
  | zero => rfl
  | succ k ih =>
    rw [hexDigits, digits16, List.map_cons]
    split
    · rfl
    · rw [ih]

theorem digits16_lt (fuel n : Nat) : ∀ d ∈ digits16 fuel n, d < 16 := by
  induction fuel generalizing n with
  | zero => intro d h; cases h
  | succ k ih =>
    intro d h
    rw [digits16] at h
    rcases List.mem_cons.1 h with rfl | h
    · omega
    · split at h
      · cases h
      · exact ih _ d h

theorem digits16_value (fuel n : Nat) (h : n < fuel) :
    (digits16 fuel n).foldr (fun d a => 16 * a + d) 0 = n := by
  induction fuel generalizing n with
  | zero => omega
  | succ k ih =>
    rw [digits16, List.foldr_cons]
    split
    · rw [List.foldr_nil]; omega
    · rw [ih _ (by omega)]; omega

theorem hex06_isHex (n : Nat) : IsHex (hex06 n) n := by
  unfold hex06 IsHex
  dsimp only
  refine ⟨?_, (digits16 (n + 1) n ++
    List.replicate (6 - (hexDigits (n + 1) n).length) 0).reverse.map (Prod.mk true), ?_, ?_, ?_⟩
  · simp [hexDigits]
  · intro x hx
    obtain ⟨d, hd, rfl⟩ := List.mem_map.1 hx
    dsimp only
    rcases List.mem_append.1 (List.mem_reverse.1 hd) with h | h
    · exact digits16_lt _ _ d h
    · rw [(List.mem_replicate.1 h).2]; decide
  · generalize 6 - (hexDigits (n + 1) n).length = k
    rw [List.map_map, hexDigits_eq, List.map_reverse, List.map_append, List.map_replicate]
    rfl
  · rw [List.foldl_map, List.foldl_reverse, List.foldr_append]
    have : ∀ k, (List.replicate k 0).foldr (fun d a => 16 * a + d) 0 = 0 := by
      intro k
      induction k with
      | zero => rfl
      | succ k ih => rw [List.replicate_succ, List.foldr_cons, ih]
    rw [this, digits16_value _ _ (by omega)]

theorem isTable_of_rows {α : Type} (name : String) (l : List α) (print : α → Str)
    (row : α → Nat × Nat × Option Nat)
    (h : ∀ x, IsRow (print x) (row x).1 (row x).2.1 (row x).2.2) :
    IsTable name (table name (l.map print)) (l.map row) := by
  refine ⟨l.map print, ?_, by simp, fun i s r hs hr => ?_⟩
  · unfold table header
    simp [String.toList_append]
  · rw [List.getElem?_map] at hs hr
    cases hx : l[i]? with
    | none => rw [hx] at hs; cases hs
    | some x =>
      rw [hx] at hs hr
      cases hs
      cases hr
      exact h x

theorem row3_isRow (r : Range) : IsRow (row3 r) r.first r.last (some r.md) :=
  ⟨_, _, hex06_isHex _, hex06_isHex _, _, hex06_isHex _, rfl⟩

theorem row2_isRow (r : Nat × Nat) : IsRow (row2 r) r.1 r.2 none :=
  ⟨_, _, hex06_isHex _, hex06_isHex _, rfl⟩

theorem packed_ofNat {a z m : Nat} (ha : a < 2 ^ 21) (hz : z < 2 ^ 21) (hm : m < 2 ^ 6) :
    (let p := Packed.mk' (UInt32.ofNat a) (UInt32.ofNat z) (UInt8.ofNat m)
     (⟨p.first.toNat, p.last.toNat, p.md.toNat⟩ : Range)) = ⟨a, z, m⟩ := by
  have h1 : (UInt32.ofNat a).toNat = a := by rw [UInt32.toNat_ofNat']; omega
  have h2 : (UInt32.ofNat z).toNat = z := by rw [UInt32.toNat_ofNat']; omega
  have h3 : (UInt8.ofNat m).toNat = m := by rw [UInt8.toNat_ofNat']; omega
  obtain ⟨e1, e2, e3⟩ := Props.C37_pack_roundtrip (UInt32.ofNat a) (UInt32.ofNat z) (UInt8.ofNat m)
    (by omega) (by omega) (by omega)
  dsimp only
  rw [e1, e2, e3, h1, h2, h3]

end ArgRouter.Tools.Tables

import Verif.Util.Locale
import Verif.Util.ListExpand
import Verif.Util.StringPolicy
import Verif.Util.Result

/-!
# C58–C61, C64–C66: utilities
-/

namespace ArgRouter

namespace Spec

/-- The part of a locale name before the encoding. -/
def beforeDot (s : Bytes) : Bytes := s.takeWhile (· ≠ 46)

mutual
/-- The contents of a parameter written in place. -/
def inPlace {α : Type} : Param α → List α
  | .elem a => [a]
  | .list cs => inPlaceAll cs
/-- The contents of several parameters, in order. -/
def inPlaceAll {α : Type} : List (Param α) → List α
  | [] => []
  | p :: ps => inPlace p ++ inPlaceAll ps
end

/-- The strings among the parameters, in order. -/
def stringsOf {α : Type} : List (FactoryParam α) → List Bytes
  | [] => []
  | .str s :: ps => s :: stringsOf ps
  | .other _ :: ps => stringsOf ps

/-- The other parameters, in order. -/
def othersOf {α : Type} : List (FactoryParam α) → List α
  | [] => []
  | .str _ :: ps => othersOf ps
  | .other a :: ps => a :: othersOf ps

/-- A string of several user-perceived characters. -/
def Multi (s : Bytes) : Prop := ∃ gs, Utf8.graphemes s = .ok gs ∧ 2 ≤ gs.length

/-- A string of one user-perceived character. -/
def Single (s : Bytes) : Prop := ∃ g, Utf8.graphemes s = .ok [g]

end Spec

namespace Props
open Spec

/-! ## C58 -/

theorem take_findIdx (s : Bytes) :
    s.take ((s.findIdx? (· == 46)).getD s.length) = beforeDot s := by
  induction s with
  | nil => rfl
  | cons c cs ih =>
    unfold beforeDot at ih ⊢
    rw [List.findIdx?_cons, List.takeWhile_cons]
    by_cases h : c = 46
    · subst h; simp
    · have h' : (c == 46) = false := by simpa using h
      have h'' : decide (c ≠ 46) = true := by simpa using h
      simp only [h', Bool.false_eq_true, if_false, h'', if_true]
      rw [← ih]
      cases hf : cs.findIdx? (· == 46) with
      | none => simp
      | some i => simp

theorem iso_eq (name : Bytes) :
    isoLocale name = (beforeDot name).map fun c => if c == 45 then 95 else c := by
  rw [← take_findIdx]; rfl

/-- C58. The normalised name is the part before the first dot with every hyphen replaced by an
underscore: same length, and each character is the old one unless that was a hyphen. -/
theorem C58_exact (name : Bytes) :
    (isoLocale name).length = (beforeDot name).length ∧
    ∀ i (h : i < (isoLocale name).length) (h' : i < (beforeDot name).length),
      (isoLocale name)[i] = if (beforeDot name)[i] = 45 then 95 else (beforeDot name)[i] := by
  have e := iso_eq name
  refine ⟨by rw [e, List.length_map], fun i h h' => ?_⟩
  simp only [e, List.getElem_map, beq_iff_eq]

theorem mem_iso {name : Bytes} {c : UInt8} (h : c ∈ isoLocale name) : c ≠ 46 ∧ c ≠ 45 := by
  have e := iso_eq name
  rw [e, List.mem_map] at h
  obtain ⟨d, hd, rfl⟩ := h
  have hd' : d ≠ 46 := by
    have := List.all_takeWhile (p := fun c : UInt8 => decide (c ≠ 46)) (l := name)
    rw [List.all_eq_true] at this
    simpa using this d hd
  split
  · decide
  · rename_i hne
    exact ⟨hd', by simpa using hne⟩

/-- C58. A normalised name contains neither a dot nor a hyphen. -/
theorem C58_clean (name : Bytes) : (46 : UInt8) ∉ isoLocale name ∧ (45 : UInt8) ∉ isoLocale name :=
  ⟨fun h => (mem_iso h).1 rfl, fun h => (mem_iso h).2 rfl⟩

/-- C58. A name without dots and hyphens is unchanged; so normalising twice changes nothing. -/
theorem C58_idempotent (name : Bytes) :
    ((46 : UInt8) ∉ name → (45 : UInt8) ∉ name → isoLocale name = name) ∧
    isoLocale (isoLocale name) = isoLocale name := by
  have key : ∀ s : Bytes, (46 : UInt8) ∉ s → (45 : UInt8) ∉ s → isoLocale s = s := by
    intro s h₁ h₂
    rw [iso_eq]
    have ht : beforeDot s = s := by
      clear h₂
      induction s with
      | nil => rfl
      | cons c cs ih =>
        have hc : c ≠ 46 := fun e => h₁ (e ▸ List.mem_cons_self)
        have ih := ih fun h => h₁ (List.mem_cons_of_mem _ h)
        unfold beforeDot at ih ⊢
        rw [List.takeWhile_cons, if_pos (decide_eq_true hc), ih]
    rw [ht]
    conv => rhs; rw [← List.map_id s]
    apply List.map_congr_left
    intro x hx
    rw [if_neg]
    · rfl
    · simp only [beq_iff_eq]; rintro rfl; exact h₂ hx
  exact ⟨key name, key _ (C58_clean name).1 (C58_clean name).2⟩

example : isoLocale (b "en_GB.UTF-8") = b "en_GB" ∧ isoLocale (b "uz-Latn-UZ") = b "uz_Latn_UZ" ∧
    isoLocale (b "fr.UTF-8") = b "fr" ∧ isoLocale [] = [] := by decide +kernel

/-! ## C59 -/

theorem selectLoop_some (r : Bytes) (ids : List Bytes) : ∀ i k,
    selectLoop r ids i (some k) = some k := by
  induction ids with
  | nil => intros; rfl
  | cons id ids ih => intro i k; simp only [selectLoop, Option.isSome_some, Bool.true_or, if_true, ih]

theorem selectLoop_none (r : Bytes) (ids : List Bytes) : ∀ i,
    selectLoop r ids i none = (ids.findIdx? (· == r)).map (· + i) := by
  induction ids with
  | nil => intros; rfl
  | cons id ids ih =>
    intro i
    rw [List.findIdx?_cons]
    unfold selectLoop
    by_cases h : id = r
    · subst h; simp [selectLoop_some]
    · have h₁ : (id == r) = false := by simpa using h
      have h₂ : (r != id) = true := by simpa using Ne.symm h
      simp only [Option.isSome_none, Bool.false_or, h₂, if_true, ih, h₁, Bool.false_eq_true,
        if_false, Option.map_map]
      congr 1
      funext n
      simp; omega

/-- C59. The language that is built equals the requested one if any supported one does, and is the
first of those; otherwise it is the first language of all. -/
theorem C59_selected (requested : Bytes) (ids : List Bytes) :
    (requested ∈ ids →
      ids[selectLanguage requested ids]? = some requested ∧
      ∀ j, j < selectLanguage requested ids → ids[j]? ≠ some requested) ∧
    (requested ∉ ids → selectLanguage requested ids = 0) := by
  unfold selectLanguage
  rw [selectLoop_none]
  cases hf : ids.findIdx? (· == requested) with
  | none =>
    rw [List.findIdx?_eq_none_iff] at hf
    refine ⟨fun hm => ?_, fun _ => rfl⟩
    have := hf requested hm
    simp at this
  | some i =>
    obtain ⟨hlt, h₁, h₂⟩ := List.findIdx?_eq_some_iff_getElem.1 hf
    simp only [Option.map_some, Nat.add_zero]
    refine ⟨fun _ => ⟨?_, fun j hj hc => ?_⟩, fun hm => ?_⟩
    · rw [List.getElem?_eq_getElem hlt]
      simpa using h₁
    · rw [List.getElem?_eq_getElem (by omega)] at hc
      have := h₂ j hj
      simp only [Option.some.injEq] at hc
      simp [hc] at this
    · exfalso
      apply hm
      have : ids[i] = requested := by simpa using h₁
      rw [← this]; exact List.getElem_mem hlt

example : selectLanguage (b "fr") [b "en_GB", b "fr", b "ja"] = 1 ∧
    selectLanguage (b "de") [b "en_GB", b "fr", b "ja"] = 0 := by decide +kernel

/-! ## C60 -/

mutual
theorem expandOne_eq {α : Type} (r : List α) : ∀ p : Param α, expandOne r p = r ++ inPlace p
  | .elem a => by simp only [expandOne, inPlace]
  | .list cs => by simp only [expandOne, inPlace]; exact expandAll_eq r cs
theorem expandAll_eq {α : Type} (r : List α) : ∀ ps : List (Param α),
    expandAll r ps = r ++ inPlaceAll ps
  | [] => by simp only [expandAll, inPlaceAll, List.append_nil]
  | p :: ps => by
    simp only [expandAll, inPlaceAll]
    rw [expandAll_eq _ ps, expandOne_eq r p, List.append_assoc]
end

theorem inPlaceAll_append {α : Type} (ps qs : List (Param α)) :
    inPlaceAll (ps ++ qs) = inPlaceAll ps ++ inPlaceAll qs := by
  induction ps with
  | nil => simp [inPlaceAll]
  | cons p ps ih => simp [inPlaceAll, ih]

/-- C60. Expanding the parameters gives their contents written in place, in order, however deep
the lists are nested. -/
theorem C60_expand {α : Type} (params : List (Param α)) :
    listExpander params = inPlaceAll params := by
  unfold listExpander
  rw [expandAll_eq, List.nil_append]

/-- C60. A node built with a list among its parameters has the children and the policies of the
node built with the contents of the list in its place. -/
theorem C60_splice {α : Type} (isNode : α → Bool) (before after : List (Param α))
    (items : List α) (h : ∀ a ∈ items, isNode a = true) :
    childrenOf isNode (before ++ .list (items.map .elem) :: after) =
      childrenOf isNode (before ++ items.map .elem ++ after) ∧
    policiesOf isNode (before ++ .list (items.map .elem) :: after) =
      policiesOf isNode (before ++ items.map .elem ++ after) := by
  refine ⟨?_, ?_⟩
  · unfold childrenOf
    rw [C60_expand, C60_expand]
    simp only [inPlaceAll_append, inPlaceAll, inPlace, List.append_assoc]
  · unfold policiesOf
    simp only [List.filterMap_append, List.filterMap_cons, List.append_assoc]
    congr 1
    have : List.filterMap (policyParam isNode) (items.map .elem) = [] := by
      rw [List.filterMap_eq_nil_iff]
      intro x hx
      obtain ⟨a, ha, rfl⟩ := List.mem_map.1 hx
      simp [policyParam, h a ha]
    rw [this, List.nil_append]
    rfl

/-- C60. No node is lost or duplicated, and no policy becomes a child: in a node that compiles the
children are the nodes among the contents, the policies the rest. -/
theorem C60_partition {α : Type} (isNode : α → Bool) (params : List (Param α))
    (h : paramsCompile isNode params = true) :
    childrenOf isNode params = (inPlaceAll params).filter isNode ∧
    policiesOf isNode params = (inPlaceAll params).filter (fun a => !isNode a) := by
  refine ⟨by unfold childrenOf; rw [C60_expand], ?_⟩
  induction params with
  | nil => rfl
  | cons p ps ih =>
    simp only [paramsCompile, List.all_cons, Bool.and_eq_true] at h
    have ih := ih (by simpa [paramsCompile] using h.2)
    simp only [policiesOf] at ih ⊢
    simp only [List.filterMap_cons, inPlaceAll, List.filter_append]
    cases p with
    | elem a =>
      rw [ih]
      cases hn : isNode a <;> simp [policyParam, inPlace, hn]
    | list cs =>
      rw [ih]
      have hz : (inPlace (.list cs)).filter (fun a => !isNode a) = [] := by
        have hc := h.1
        clear h ih
        simp only [inPlace]
        induction cs with
        | nil => rfl
        | cons c cs ih =>
          simp only [List.all_cons, Bool.and_eq_true] at hc
          simp only [inPlaceAll, List.filter_append]
          cases c with
          | elem a => simp [inPlace, hc.1, ih hc.2]
          | list ds => exact absurd hc.1 (by simp)
      rw [hz, List.nil_append]
      rfl

example : listExpander [.elem 1, .list [.elem 2, .list [.elem 3], .elem 4], .elem 5] =
    [1, 2, 3, 4, 5] := by decide +kernel
example : paramsCompile (fun n => decide (n > 1)) [.elem 1, .list [.elem 2, .elem 3], .elem 5] =
    true := by decide +kernel

/-! ## C61 -/

theorem isMultiChar_iff (s : Bytes) : isMultiChar s = true ↔ Multi s := by
  unfold isMultiChar Multi Utf8.gCount
  cases Utf8.graphemes s with
  | ok gs => simp [bind, Out.bind, pure]; omega
  | _ => simp [bind, Out.bind]

theorem isSingleChar_iff (s : Bytes) : isSingleChar s = true ↔ Single s := by
  unfold isSingleChar Single Utf8.gCount
  cases Utf8.graphemes s with
  | ok gs => simp [bind, Out.bind, pure, List.length_eq_one_iff]
  | _ => simp [bind, Out.bind]

instance (s : Bytes) : Decidable (Multi s) := decidable_of_iff _ (isMultiChar_iff s)
instance (s : Bytes) : Decidable (Single s) := decidable_of_iff _ (isSingleChar_iff s)

theorem multi_not_single {s : Bytes} (h : isMultiChar s = true) : isSingleChar s = false := by
  unfold isMultiChar at h
  unfold isSingleChar
  cases hg : Utf8.gCount s with
  | ok n => rw [hg] at h; simp at h ⊢; omega
  | _ => rfl

theorem stringsOf_eq {α : Type} (ps : List (FactoryParam α)) :
    ps.filterMap FactoryParam.string? = stringsOf ps := by
  induction ps with
  | nil => rfl
  | cons p ps ih => cases p <;> simp [FactoryParam.string?, List.filterMap_cons, stringsOf, ih]

theorem othersOf_eq {α : Type} (ps : List (FactoryParam α)) :
    ps.filterMap FactoryParam.other? = othersOf ps := by
  induction ps with
  | nil => rfl
  | cons p ps ih => cases p <;> simp [FactoryParam.other?, List.filterMap_cons, othersOf, ih]

theorem find_filter (p : Bytes → Bool) (ss : List Bytes) : ss.find? p = (ss.filter p)[0]? := by
  induction ss with
  | nil => rfl
  | cons s ss ih =>
    rw [List.find?_cons, List.filter_cons]
    cases p s <;> simp [ih]

theorem second_filter (p : Bytes → Bool) (ss : List Bytes) :
    (let first := (ss.findIdx? p).getD ss.length
     (if first == ss.length then [] else ss.drop (first + 1)).find? p) = (ss.filter p)[1]? := by
  induction ss with
  | nil => rfl
  | cons s ss ih =>
    dsimp only at ih ⊢
    rw [List.findIdx?_cons, List.filter_cons]
    cases hs : p s with
    | true => simp [find_filter]
    | false =>
      simp only [Bool.false_eq_true, if_false]
      rw [← ih]
      cases hf : ss.findIdx? p with
      | none => simp
      | some i =>
        simp only [Option.map_some, Option.getD_some, List.length_cons, beq_iff_eq,
          Nat.add_right_cancel_iff, List.drop_succ_cons]

theorem pick_multi (ss : List Bytes) :
    Mapper.pick .firstString ss = (ss.filter isMultiChar)[0]? ∧
    Mapper.pick .secondString ss = (ss.filter isMultiChar)[1]? ∧
    Mapper.pick .singleChar ss = (ss.filter isSingleChar)[0]? :=
  ⟨find_filter _ _, second_filter _ _, find_filter _ _⟩

theorem split_length (ss : List Bytes) :
    (ss.filter isMultiChar).length + (ss.filter isSingleChar).length +
      (ss.filter fun s => !isMultiChar s && !isSingleChar s).length = ss.length := by
  induction ss with
  | nil => rfl
  | cons s ss ih =>
    simp only [List.filter_cons, List.length_cons]
    cases hm : isMultiChar s with
    | true => simp [multi_not_single hm]; omega
    | false => cases hs : isSingleChar s <;> simp <;> omega

theorem rest_empty (ss : List Bytes) :
    (ss.filter fun s => !isMultiChar s && !isSingleChar s).length = 0 ↔
      ∀ s ∈ ss, Multi s ∨ Single s := by
  rw [List.length_eq_zero_iff, List.filter_eq_nil_iff]
  constructor
  · intro h s hs
    have := h s hs
    rw [← isMultiChar_iff, ← isSingleChar_iff]
    cases h₁ : isMultiChar s <;> cases h₂ : isSingleChar s <;> simp_all
  · intro h s hs
    have := h s hs
    rw [← isMultiChar_iff, ← isSingleChar_iff] at this
    rcases this with h | h <;> simp [h]

theorem optList_length {α : Type} (f : Bytes → α) (l : List Bytes) (k : Nat) :
    (l[k]?.map f).toList.length = if k < l.length then 1 else 0 := by
  split
  · rename_i h; rw [List.getElem?_eq_getElem h]; rfl
  · rename_i h; rw [List.getElem?_eq_none (by omega)]; rfl

theorem filterMap_toList {β γ : Type} (f : β → Option γ) (l : List β) :
    l.filterMap f = (l.map fun x => (f x).toList).flatten := by
  induction l with
  | nil => rfl
  | cons x l ih =>
    rw [List.filterMap_cons]
    cases hx : f x <;> simp [hx, ih]

/-- C61, flags, arguments and help. The parameters are accepted exactly when every bare string has
at least one character, at most two have several and at most one is a single character. Then the
first string of several characters becomes the long name, the second the description, the single
character the short name, and the other parameters follow in order. -/
theorem C61_labelled {α : Type} (long desc short : Bytes → α) (params : List (FactoryParam α))
    (ms ss : List Bytes)
    (hm : ms = (stringsOf params).filter (fun s => decide (Multi s)))
    (hs : ss = (stringsOf params).filter (fun s => decide (Single s))) :
    (convertStrings (labelledMappings long desc short) params ≠ none ↔
      (∀ s ∈ stringsOf params, Multi s ∨ Single s) ∧ ms.length ≤ 2 ∧ ss.length ≤ 1) ∧
    ∀ r, convertStrings (labelledMappings long desc short) params = some r →
      r = (ms[0]?.map long).toList ++ (ms[1]?.map desc).toList ++ (ss[0]?.map short).toList ++
        othersOf params := by
  have e₁ : (fun s => decide (Multi s)) = isMultiChar := by
    funext s; rw [Bool.eq_iff_iff, decide_eq_true_iff, isMultiChar_iff]
  have e₂ : (fun s => decide (Single s)) = isSingleChar := by
    funext s; rw [Bool.eq_iff_iff, decide_eq_true_iff, isSingleChar_iff]
  rw [e₁] at hm
  rw [e₂] at hs
  subst hm hs
  have hl := split_length (stringsOf params)
  have hr := rest_empty (stringsOf params)
  obtain ⟨h₁, h₂, h₃⟩ := pick_multi (stringsOf params)
  unfold convertStrings labelledMappings
  simp only [stringsOf_eq, othersOf_eq, filterMap_toList (fun m : Mapper × (Bytes → α) => _),
    List.map_cons, List.map_nil, List.flatten_cons, List.flatten_nil, List.append_nil, h₁, h₂, h₃]
  rw [← hr]
  have l₁ := optList_length long ((stringsOf params).filter isMultiChar) 0
  have l₂ := optList_length desc ((stringsOf params).filter isMultiChar) 1
  have l₃ := optList_length short ((stringsOf params).filter isSingleChar) 0
  constructor
  · simp only [List.length_append, l₁, l₂, l₃, beq_iff_eq, ne_eq, ite_eq_right_iff, reduceCtorEq,
      imp_false, Decidable.not_not]
    split <;> split <;> split <;> omega
  · intro r h
    split at h
    · cases h
      simp only [List.append_assoc]
    · cases h

/-- C61, modes and positional arguments. The parameters are accepted exactly when there are at most
two bare strings; the first becomes the name, the second the description, and the other
parameters follow in order. -/
theorem C61_text {α : Type} (name desc : Bytes → α) (params : List (FactoryParam α)) :
    (convertStrings (textMappings name desc) params ≠ none ↔ (stringsOf params).length ≤ 2) ∧
    ∀ r, convertStrings (textMappings name desc) params = some r →
      r = ((stringsOf params)[0]?.map name).toList ++ ((stringsOf params)[1]?.map desc).toList ++
        othersOf params := by
  unfold convertStrings textMappings
  simp only [stringsOf_eq, othersOf_eq, filterMap_toList (fun m : Mapper × (Bytes → α) => _),
    List.map_cons, List.map_nil, List.flatten_cons, List.flatten_nil, List.append_nil, Mapper.pick]
  have l₁ := optList_length name (stringsOf params) 0
  have l₂ := optList_length desc (stringsOf params) 1
  constructor
  · simp only [List.length_append, l₁, l₂, beq_iff_eq, ne_eq, ite_eq_right_iff, reduceCtorEq,
      imp_false, Decidable.not_not]
    split <;> split <;> omega
  · intro r h
    split at h
    · cases h
      simp only [List.append_assoc]
    · cases h

/-- C61, forwarding arguments. The parameters are accepted exactly when there are at most two bare
strings and each has several characters; the first becomes the name, the second the description. -/
theorem C61_forwarding {α : Type} (name desc : Bytes → α) (params : List (FactoryParam α)) :
    (convertStrings (forwardingMappings name desc) params ≠ none ↔
      (stringsOf params).length ≤ 2 ∧ ∀ s ∈ stringsOf params, Multi s) ∧
    ∀ r, convertStrings (forwardingMappings name desc) params = some r →
      r = ((stringsOf params)[0]?.map name).toList ++ ((stringsOf params)[1]?.map desc).toList ++
        othersOf params := by
  obtain ⟨h₁, h₂, -⟩ := pick_multi (stringsOf params)
  have hle := List.length_filter_le isMultiChar (stringsOf params)
  have hall : ((stringsOf params).filter isMultiChar).length = (stringsOf params).length ↔
      ∀ s ∈ stringsOf params, Multi s := by
    rw [List.length_filter_eq_length_iff]
    exact ⟨fun h s hs => (isMultiChar_iff s).1 (h s hs), fun h s hs => (isMultiChar_iff s).2 (h s hs)⟩
  unfold convertStrings forwardingMappings
  simp only [stringsOf_eq, othersOf_eq, filterMap_toList (fun m : Mapper × (Bytes → α) => _),
    List.map_cons, List.map_nil, List.flatten_cons, List.flatten_nil, List.append_nil, h₁, h₂]
  have l₁ := optList_length name ((stringsOf params).filter isMultiChar) 0
  have l₂ := optList_length desc ((stringsOf params).filter isMultiChar) 1
  have key : ((stringsOf params).length =
      (((stringsOf params).filter isMultiChar)[0]?.map name).toList.length +
        (((stringsOf params).filter isMultiChar)[1]?.map desc).toList.length) ↔
      (stringsOf params).length ≤ 2 ∧ ∀ s ∈ stringsOf params, Multi s := by
    rw [l₁, l₂, ← hall]
    split <;> split <;> omega
  constructor
  · simp only [List.length_append, beq_iff_eq, ne_eq, ite_eq_right_iff, reduceCtorEq,
      imp_false, Classical.not_not, key]
  · intro r h
    split at h
    · rename_i hlen
      rw [beq_iff_eq, List.length_append] at hlen
      have hf : (stringsOf params).filter isMultiChar = stringsOf params := by
        rw [List.filter_eq_self]
        intro s hs
        exact (isMultiChar_iff s).2 ((key.1 hlen).2 s hs)
      rw [hf] at h
      cases h
      simp only [List.append_assoc]
    · cases h

/-- A flag's parameters: `"v"`, a policy, `"verbose"`, `"Says more"`. -/
def flagParams : List (FactoryParam (Nat × Bytes)) :=
  [.str (b "v"), .other (9, []), .str (b "verbose"), .str (b "Says more")]

example : convertStrings (labelledMappings (0, ·) (1, ·) (2, ·)) flagParams =
    some [(0, b "verbose"), (1, b "Says more"), (2, b "v"), (9, [])] := by decide +kernel
example : convertStrings (labelledMappings (0, ·) (1, ·) (2, ·)) (.str (b "w") :: flagParams) = none := by
  decide +kernel
example : convertStrings (textMappings (0, ·) (1, ·)) [.str (b "m"), .other (9, [])] =
    some [(0, b "m"), (9, [])] := by decide +kernel
example : convertStrings (forwardingMappings (0, ·) (1, ·)) [.str (b "--"), .other (9, [])] =
    some [(0, b "--"), (9, [])] := by decide +kernel

/-! ## C64 -/

/-- C64. A result holds a value or an error and never both; the tests agree on which. -/
theorem C64_either {α : Type} (r : Res α) :
    ((∃ v, r = .value v) ∧ r.hasResult = true ∧ r.hasError = false ∧ r.toBool = true ∧ r.not = false) ∨
    ((∃ e, r = .error e) ∧ r.hasResult = false ∧ r.hasError = true ∧ r.toBool = false ∧
      r.not = true) := by
  cases r with
  | value v => exact .inl ⟨⟨v, rfl⟩, rfl, rfl, rfl, rfl⟩
  | error e => exact .inr ⟨⟨e, rfl⟩, rfl, rfl, rfl, rfl⟩

/-- C64. Comparing never throws; a result equals a value exactly when it holds an equal one, two
results are equal exactly when both hold values and these are equal, and `!=` is the opposite. -/
theorem C64_equal {α : Type} (eqv : α → α → Bool) (r : Res α) (v : α) (r' : Res α) :
    (∃ c, r.eqVal eqv v = .ok c ∧ r.neVal eqv v = .ok (!c) ∧
      (c = true ↔ ∃ w, r = .value w ∧ eqv w v = true)) ∧
    (∃ c, r.eqRes eqv r' = .ok c ∧ r.neRes eqv r' = .ok (!c) ∧
      (c = true ↔ ∃ w w', r = .value w ∧ r' = .value w' ∧ eqv w w' = true)) := by
  cases r with
  | error e => exact ⟨⟨false, rfl, rfl, by simp⟩, ⟨false, rfl, rfl, by simp⟩⟩
  | value w =>
    refine ⟨⟨eqv w v, rfl, rfl, by simp⟩, ?_⟩
    cases r' with
    | error e => exact ⟨false, rfl, rfl, by simp⟩
    | value w' => exact ⟨eqv w w', rfl, rfl, by simp⟩

/-- C64. Access gives the value or throws the error held, and nothing else happens. -/
theorem C64_access {α : Type} (r : Res α) :
    (∀ v, r = .value v → r.get = .ok v ∧ r.getIf = .ok (some v) ∧ r.throwException = .ok ()) ∧
    (∀ e, r = .error e → r.get = .throw e ∧ r.getIf = .ok none ∧ r.throwException = .throw e) := by
  refine ⟨?_, ?_⟩
  · rintro v rfl; exact ⟨rfl, rfl, rfl⟩
  · rintro e rfl; exact ⟨rfl, rfl, rfl⟩

/-! ## C65 -/

/-- Every constructed function is called at most once and belongs to at most one target, which
then has not been called. -/
structure OneShot (st : PTState) : Prop where
  nodup : (st.calls.map (·.1)).Nodup
  old : ∀ f ∈ st.calls.map (·.1), f < st.next
  live : ∀ i t f, st.objs i = some t → t.parse = some f → f < st.next ∧ f ∉ st.calls.map (·.1)
  inj : ∀ i j t u f, st.objs i = some t → st.objs j = some u → t.parse = some f →
    u.parse = some f → i = j

/-- A variable gets a target whose function, if any, was its own before. -/
theorem oneShot_put {st : PTState} (h : OneShot st) (i : Nat) (t : Option PTarget)
    (ht : ∀ u f, t = some u → u.parse = some f → ∃ v, st.objs i = some v ∧ v.parse = some f) :
    OneShot (st.put i t) where
  nodup := h.nodup
  old := h.old
  live := by
    intro j u f hj hf
    simp only [PTState.put] at hj
    split at hj
    · obtain ⟨v, hv, hvf⟩ := ht u f hj hf
      exact h.live i v f hv hvf
    · exact h.live j u f hj hf
  inj := by
    intro j k u v f hj hk hu hv
    simp only [PTState.put] at hj hk
    split at hj <;> split at hk
    · rename_i h₁ h₂; rw [h₁, h₂]
    · rename_i h₁ h₂
      obtain ⟨w, hw, hwf⟩ := ht u f hj hu
      rw [h₁]; exact h.inj i k w v f hw hk hwf hv
    · rename_i h₁ h₂
      obtain ⟨w, hw, hwf⟩ := ht v f hk hv
      rw [h₂]; exact h.inj j i u w f hj hw hu hwf
    · exact h.inj j k u v f hj hk hu hv

theorem oneShot_move {st : PTState} (h : OneShot st) {i j : Nat} (hij : i ≠ j) {t : PTarget}
    (hj : st.objs j = some t) : OneShot ((st.put i (some t)).put j (some ⟨none, []⟩)) where
  nodup := h.nodup
  old := h.old
  live := by
    intro k u f hk hf
    simp only [PTState.put] at hk
    split at hk
    · cases hk; cases hf
    · split at hk
      · cases hk; exact h.live j t f hj hf
      · exact h.live k u f hk hf
  inj := by
    intro k l u v f hk hl hu hv
    simp only [PTState.put] at hk hl
    split at hk
    · cases hk; cases hu
    · split at hl
      · cases hl; cases hv
      · rename_i hkj hlj
        split at hk <;> split at hl
        · rename_i h₁ h₂; rw [h₁, h₂]
        · cases hk; exact absurd (h.inj l j v t f hl hj hv hu) hlj
        · cases hl; exact absurd (h.inj k j u t f hk hj hu hv) hkj
        · exact h.inj k l u v f hk hl hu hv

theorem oneShot_step {st st' : PTState} {e : Bool} (h : OneShot st) (op : PTOp)
    (hr : op.run st = some (st', e)) : OneShot st' := by
  cases op with
  | make i ts =>
    simp only [PTOp.run] at hr
    cases hi : st.objs i with
    | some t => rw [hi] at hr; cases hr
    | none =>
      rw [hi] at hr; cases hr
      refine ⟨h.nodup, fun f hf => Nat.lt_succ_of_lt (h.old f hf), ?_, ?_⟩
      · intro j u f hj hf
        simp only [PTState.put] at hj
        split at hj
        · cases hj; cases hf
          exact ⟨Nat.lt_succ_self _, fun hm => absurd (h.old _ hm) (Nat.lt_irrefl _)⟩
        · exact ⟨Nat.lt_succ_of_lt (h.live j u f hj hf).1, (h.live j u f hj hf).2⟩
      · intro j k u v f hj hk hu hv
        simp only [PTState.put] at hj hk
        split at hj <;> split at hk
        · rename_i h₁ h₂; rw [h₁, h₂]
        · cases hj; cases hu
          exact absurd (h.live k v _ hk hv).1 (Nat.lt_irrefl _)
        · cases hk; cases hv
          exact absurd (h.live j u _ hj hu).1 (Nat.lt_irrefl _)
        · exact h.inj j k u v f hj hk hu hv
  | move i j =>
    simp only [PTOp.run] at hr
    cases hi : st.objs i with
    | some t => rw [hi] at hr; cases hr
    | none =>
      cases hj : st.objs j with
      | none => rw [hi, hj] at hr; cases hr
      | some t =>
        rw [hi, hj] at hr; cases hr
        exact oneShot_move h (by rintro rfl; rw [hi] at hj; cases hj) hj
  | assignMove i j =>
    simp only [PTOp.run] at hr
    cases hi : st.objs i with
    | none => rw [hi] at hr; cases hr
    | some o =>
      cases hj : st.objs j with
      | none => rw [hi, hj] at hr; cases hr
      | some t =>
        rw [hi, hj] at hr
        by_cases hij : i = j
        · simp only [if_pos hij] at hr; cases hr; exact h
        · simp only [if_neg hij] at hr; cases hr; exact oneShot_move h hij hj
  | setTokens i ts =>
    simp only [PTOp.run] at hr
    cases hi : st.objs i with
    | none => rw [hi] at hr; cases hr
    | some t =>
      rw [hi] at hr; cases hr
      exact oneShot_put h i _ (by rintro u f hu hf; cases hu; exact ⟨t, hi, hf⟩)
  | invoke i =>
    simp only [PTOp.run] at hr
    cases hi : st.objs i with
    | none => rw [hi] at hr; cases hr
    | some t =>
      rw [hi] at hr
      cases hf : t.parse with
      | none => simp only [hf] at hr; cases hr; exact h
      | some f =>
        simp only [hf] at hr; cases hr
        obtain ⟨h₁, h₂⟩ := h.live i t f hi hf
        have hp := oneShot_put h i (some ⟨none, []⟩) (by rintro u g hu hg; cases hu; cases hg)
        refine ⟨?_, ?_, ?_, hp.inj⟩
        · exact List.nodup_cons.2 ⟨h₂, h.nodup⟩
        · intro g hg
          rcases List.mem_cons.1 hg with rfl | hg
          · exact h₁
          · exact h.old g hg
        · intro j u g hj hg
          have hj' := hj
          simp only [PTState.put] at hj
          split at hj
          · cases hj; cases hg
          · rename_i hne
            refine ⟨(h.live j u g hj hg).1, fun hm => ?_⟩
            rcases List.mem_cons.1 hm with e | hm
            · exact hne (h.inj j i u t g hj hi hg (by rw [hf, e]))
            · exact (h.live j u g hj hg).2 hm
  | destroy i =>
    simp only [PTOp.run] at hr
    cases hi : st.objs i with
    | none => rw [hi] at hr; cases hr
    | some t =>
      rw [hi] at hr; cases hr
      exact oneShot_put h i none (by rintro u f hu; cases hu)

theorem oneShot_run (ops : List PTOp) : ∀ st st', OneShot st → runPT st ops = some st' →
    OneShot st' := by
  induction ops with
  | nil => intro st st' h hr; cases hr; exact h
  | cons op ops ih =>
    intro st st' h hr
    unfold runPT at hr
    cases ho : op.run st with
    | none => rw [ho] at hr; cases hr
    | some r => rw [ho] at hr; exact ih _ _ (oneShot_step h op ho) hr

theorem oneShot_init : OneShot .init where
  nodup := .nil
  old := fun f h => (nomatch h)
  live := fun i t f h => (nomatch h)
  inj := fun i j t u f h => (nomatch h)

/-- C65. However targets are constructed, edited, moved around, invoked and destroyed, the node
behind each constructed target is parsed at most once. -/
theorem C65_once (ops : List PTOp) (st : PTState) (h : runPT .init ops = some st) (f : Nat) :
    (st.calls.map (·.1)).count f ≤ 1 := by
  have := oneShot_run ops _ _ oneShot_init h
  rw [this.nodup.count]
  split <;> omega

/-- C65. The first invocation of a target parses its node with the tokens it has then; any further
invocation does nothing until another target is moved into the variable. -/
theorem C65_first (st : PTState) (i : Nat) (t : PTarget) (hi : st.objs i = some t) :
    (∀ f, t.parse = some f → ∃ st', PTOp.run st (.invoke i) = some (st', true) ∧
      st'.calls = (f, t.tokens) :: st.calls ∧
      PTOp.run st' (.invoke i) = some (st', false) ∧
      ∀ ts, ∃ st'', PTOp.run st' (.setTokens i ts) = some (st'', false) ∧
        PTOp.run st'' (.invoke i) = some (st'', false)) ∧
    (t.parse = none → PTOp.run st (.invoke i) = some (st, false)) := by
  refine ⟨fun f hf => ?_, fun hf => by simp only [PTOp.run, hi, hf]⟩
  refine ⟨{ st with calls := (f, t.tokens) :: st.calls }.put i (some ⟨none, []⟩), ?_, rfl, ?_, ?_⟩
  · simp only [PTOp.run, hi, hf]
  · simp only [PTOp.run, PTState.put, if_true]
  · intro ts
    refine ⟨({ st with calls := (f, t.tokens) :: st.calls }.put i (some ⟨none, []⟩)).put i
      (some ⟨none, ts⟩), ?_, ?_⟩
    · simp only [PTOp.run, PTState.put, if_true]
    · simp only [PTOp.run, PTState.put, if_true]

/-- C65. Nothing but an invocation parses a node, and an operation parses one node at most. -/
theorem C65_only_invoked (st st' : PTState) (op : PTOp) (called : Bool)
    (h : PTOp.run st op = some (st', called)) :
    (called = false → st'.calls = st.calls) ∧
    (called = true → ∃ i t f, op = .invoke i ∧ st.objs i = some t ∧ t.parse = some f ∧
      st'.calls = (f, t.tokens) :: st.calls) := by
  cases op <;> simp only [PTOp.run] at h <;> repeat' split at h
  all_goals first | (injection h with h; injection h with h1 h2; subst h1 h2) | (exfalso; injection h)
  all_goals
    first
    | exact ⟨fun _ => rfl, fun h => Bool.noConfusion h⟩
    | (rename_i t ht _ f hf
       exact ⟨fun h => Bool.noConfusion h, fun _ => ⟨_, t, f, rfl, ht, hf, rfl⟩⟩)

/-- A program meeting the hypothesis of `C65_once`. -/
example : ((runPT .init [.make 0 [⟨.none, b "a"⟩], .make 1 [], .invoke 0, .invoke 0, .move 2 1,
    .setTokens 2 [⟨.none, b "z"⟩], .invoke 1, .invoke 2, .assignMove 0 2, .invoke 0]).map
      (·.calls)) = some [(1, [⟨.none, b "z"⟩]), (0, [⟨.none, b "a"⟩])] := by decide +kernel

/-! ## C66 -/

/-- C66. The boolean parser gives true exactly for the documented true words, false exactly for the
false words, and fails on every other string naming that string. -/
theorem C66_words (token : Bytes) :
    (parseBool token = .ok true ↔ token ∈ ["true", "yes", "y", "on", "1", "enable"].map b) ∧
    (parseBool token = .ok false ↔ token ∈ ["false", "no", "n", "off", "0", "disable"].map b) ∧
    (token ∉ ["true", "yes", "y", "on", "1", "enable"].map b →
      token ∉ ["false", "no", "n", "off", "0", "disable"].map b →
      parseBool token = .throw ⟨.failed_to_parse, [⟨.none, token⟩]⟩) := by
  have ht : trueTokens = ["true", "yes", "y", "on", "1", "enable"].map b := rfl
  have hf : falseTokens = ["false", "no", "n", "off", "0", "disable"].map b := rfl
  rw [← ht, ← hf]
  have hd : ∀ x ∈ trueTokens, x ∉ falseTokens := by decide +kernel
  unfold parseBool
  by_cases h₁ : token ∈ trueTokens
  · have h₂ := hd token h₁
    simp [h₁, h₂]
  · by_cases h₂ : token ∈ falseTokens
    · simp [h₁, h₂]
    · simp [h₁, h₂]

example : parseBool (b "enable") = .ok true ∧ parseBool (b "n") = .ok false ∧
    parseBool (b "True") = .throw ⟨.failed_to_parse, [⟨.none, b "True"⟩]⟩ := by decide +kernel

end Props
end ArgRouter

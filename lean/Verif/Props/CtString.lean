import Verif.Util.CtString
import Verif.Props.Depend
import Verif.Props.Compile

/-!
# C94: compile-time strings
-/

namespace ArgRouter

open Cts20

/-- A text without null characters. -/
def Spec.NoNull (s : Bytes) : Prop := ∀ c ∈ s, c ≠ 0

/-- Strings of C++20 that are written as literals, concatenated or taken from another one. -/
inductive Spec.Written : Storage → Prop where
  | literal {s : Bytes} : Spec.NoNull s → Spec.Written (ofLiteral s)
  | concatenation (x y : Storage) : Spec.Written (append x y)
  | part {pos count : Nat} {x y : Storage} : substr pos count x = some y → Spec.Written y

namespace Props

open Spec

/-! ## C++17 -/

theorem filter_get {s : Bytes} (hs : NoNull s) (g : Nat → UInt8) (max : Nat)
    (h1 : ∀ i (h : i < s.length), g i = s[i]) (h2 : ∀ i, s.length ≤ i → g i = 0) :
    ((List.range max).map g).filter (· != 0) = s.take max := by
  induction max with
  | zero => rfl
  | succ n ih =>
    rw [List.range_succ, List.map_append, List.filter_append, ih]
    by_cases hn : n < s.length
    · rw [List.take_succ_eq_append_getElem hn]
      simp [h1 n hn, hs _ (List.getElem_mem hn)]
    · rw [List.take_of_length_le (by omega), List.take_of_length_le (by omega)]
      simp [h2 n (by omega)]

theorem make_eq {s : Bytes} (hs : NoNull s) (tok : Cts17.Tok) (max : Nat)
    (h1 : ∀ i (h : i < s.length), Cts17.get tok i = s[i])
    (h2 : ∀ i, s.length ≤ i → Cts17.get tok i = 0) :
    Cts17.make max tok = if s.length < max then some s else none := by
  unfold Cts17.make
  rw [filter_get hs _ max h1 h2]
  dsimp only
  rw [List.length_take]
  by_cases h : s.length < max
  · rw [if_pos h, if_pos (by omega), List.take_of_length_le (by omega)]
  · rw [if_neg h, if_neg (by omega)]

/-- C94, C++17: the string made from a literal or a view of a text is that text, or the text is too
long and the program does not compile. -/
theorem C94_cpp17 (max : Nat) (s : Bytes) (hs : NoNull s) :
    Cts17.make max (.literal s) = (if s.length < max then some s else none) ∧
    Cts17.make max (.view s) = (if s.length < max then some s else none) := by
  refine ⟨make_eq hs _ _ (fun i h => ?_) (fun i h => ?_), make_eq hs _ _ (fun i h => ?_) (fun i h => ?_)⟩
  · simp [Cts17.get, h, Nat.lt_succ_of_lt h]
  · simp only [Cts17.get]
    split
    · have : i = s.length := by omega
      subst this
      simp
    · rfl
  · simp [Cts17.get, h]
  · simp [Cts17.get, Nat.not_lt.2 h]

/-- C94, C++17: the string made from a character. -/
theorem C94_cpp17_char (max : Nat) (hm : 1 < max) (c : UInt8) (hc : c ≠ 0) :
    Cts17.make max (.char c) = some [c] := by
  have := make_eq (s := [c]) (by simpa [NoNull] using hc) (.char c) max
    (fun i h => by
      have : i = 0 := by simpa using h
      subst this; rfl)
    (fun i h => by
      have : ¬ i < 1 := Nat.not_lt.2 h
      simp [Cts17.get, this])
  rw [this, if_pos (by simpa using hm)]

/-- C94, C++17: strings put together are the string made from the texts put together – the same type,
not only the same text – and a repeated character is the string made from its repetition. The limit on
the length is one on what is written in `S_`, not on what is put together. -/
theorem C94_cpp17_concatenation (max max' : Nat) (s t x y : Bytes) (hs : NoNull s) (ht : NoNull t)
    (hx : Cts17.make max (.literal s) = some x) (hy : Cts17.make max (.literal t) = some y)
    (n : Nat) (c : UInt8) (hc : c ≠ 0) :
    Cts17.append x y = s ++ t ∧
    ((s ++ t).length < max' → Cts17.make max' (.literal (s ++ t)) = some (Cts17.append x y)) ∧
    (n < max' → Cts17.make max' (.literal (List.replicate n c)) = some (Cts17.sequence n c)) := by
  rw [(C94_cpp17 max s hs).1] at hx
  rw [(C94_cpp17 max t ht).1] at hy
  have hx : x = s := by
    split at hx
    · exact (Option.some.inj hx).symm
    · cases hx
  have hy : y = t := by
    split at hy
    · exact (Option.some.inj hy).symm
    · cases hy
  subst hx hy
  have hst : NoNull (x ++ y) := fun d hd => (List.mem_append.1 hd).elim (hs d) (ht d)
  have hr : NoNull (List.replicate n c) := fun d hd => by rw [(List.mem_replicate.1 hd).2]; exact hc
  refine ⟨rfl, fun h => ?_, fun h => ?_⟩
  · rw [(C94_cpp17 max' _ hst).1, if_pos h]; rfl
  · rw [(C94_cpp17 max' _ hr).1, if_pos (by simpa using h)]; rfl

/-- The hypotheses are met by a text that is short enough and by one that is not. -/
example : Cts17.make 128 (.literal (b "help")) = some (b "help") ∧
    Cts17.make 4 (.literal (b "help")) = none ∧ NoNull (b "help") ∧
    Cts17.make 4 (.literal (b "pag")) = some (b "pag") ∧
    Cts17.append (b "pag") (b "e") = b "page" :=
  ⟨by decide +kernel, by decide +kernel, by unfold NoNull; decide +kernel, by decide +kernel,
    by decide +kernel⟩

/-! ## C++20 -/

theorem size_le (s : Storage) : size s ≤ s.length := by
  induction s with
  | nil => exact Nat.le_refl _
  | cons c s ih => rw [size]; split <;> simp <;> omega

theorem noNull_text (s : Storage) : NoNull (text s) := by
  intro c hc
  induction s with
  | nil => cases hc
  | cons x s ih =>
    unfold text at hc ih
    rw [size] at hc
    split at hc
    · cases hc
    · rename_i hx
      rw [List.take_succ_cons] at hc
      rcases List.mem_cons.1 hc with rfl | hc
      · simpa using hx
      · exact ih hc

theorem text_length (s : Storage) : (text s).length = size s := by
  simp [text, size_le]

theorem text_append {s : Bytes} (hs : NoNull s) (t : Storage) : text (s ++ t) = s ++ text t := by
  induction s with
  | nil => rfl
  | cons c s ih =>
    have hc := hs c List.mem_cons_self
    have ih := ih fun x hx => hs x (List.mem_cons_of_mem _ hx)
    simp only [text, List.cons_append, size] at ih ⊢
    rw [if_neg (by simpa using hc), List.take_succ_cons, ih]

theorem text_plain {s : Bytes} (hs : NoNull s) : text s = s := by
  have h := text_append hs []
  rw [List.append_nil] at h
  exact h.trans (List.append_nil s)

theorem map_getD (s : Storage) (n : Nat) (h : n ≤ s.length) :
    (List.range n).map (fun i => s.getD i 0) = s.take n := by
  apply List.ext_getElem
  · simp [h]
  · intro i h1 h2
    have : i < n := by simpa using h1
    simp [List.getElem?_eq_getElem (by omega : i < s.length)]

theorem map_getD_from (s : Storage) (p n : Nat) (h : p + n ≤ s.length) :
    (List.range n).map (fun i => s.getD (p + i) 0) = (s.drop p).take n := by
  rw [← map_getD (s.drop p) n (by simp; omega)]
  apply List.map_congr_left
  intro i hi
  simp

/-- C94, C++20: the text of a string made from a literal, an array or a character is that text. -/
theorem C94_cpp20 (s : Bytes) (hs : NoNull s) (c : UInt8) (hc : c ≠ 0) :
    text (ofLiteral s) = s ∧ text (ofArray s) = s ∧ text (ofChar c) = [c] := by
  refine ⟨?_, text_plain hs, text_plain (by simpa [NoNull, ofChar] using hc)⟩
  rw [ofLiteral, text_append hs]
  simp [text, size]

theorem append_storage (s t : Storage) : append s t = ofLiteral (text s ++ text t) := by
  unfold append ofLiteral text
  rw [map_getD _ _ (size_le _), map_getD _ _ (size_le _)]

theorem noNull_append {s t : Bytes} (hs : NoNull s) (ht : NoNull t) : NoNull (s ++ t) := by
  intro c hc
  rcases List.mem_append.1 hc with h | h
  · exact hs c h
  · exact ht c h

/-- C94, C++20: concatenation concatenates the texts, whatever the strings are made from. -/
theorem C94_concatenation (s t : Storage) : text (append s t) = text s ++ text t := by
  rw [append_storage]
  exact (C94_cpp20 _ (noNull_append (noNull_text s) (noNull_text t)) 1 (by decide)).1

/-- C94, C++20: a part of a string is that part of its text, and only parts that end before the last
character compile. -/
theorem C94_part (pos count : Nat) (s : Storage) :
    (substr pos count s).map text =
      if pos + count < (text s).length then some (((text s).drop pos).take count) else none := by
  unfold substr
  rw [text_length]
  split
  · rename_i h
    have hl := size_le s
    have heq : (s.drop pos).take count = ((text s).drop pos).take count := by
      unfold text
      rw [List.drop_take, List.take_take, Nat.min_eq_left (by omega)]
    rw [map_getD_from s pos count (by omega), heq, Option.map_some]
    have hn : NoNull (((text s).drop pos).take count) := fun c hc =>
      noNull_text s c (List.mem_of_mem_drop (List.mem_of_mem_take hc))
    rw [text_append hn]
    simp [text, size]
  · rfl

/-- C94, C++20: a repeated character. -/
theorem C94_repeated (n : Nat) (c : UInt8) (hc : c ≠ 0) :
    text (Cts20.sequence n c) = List.replicate n c :=
  text_plain fun x hx => by rw [(List.mem_replicate.1 hx).2]; exact hc

/-- C94, C++20: strings made from literals, by concatenation and as parts are the same type if and
only if they have the same text. -/
theorem C94_types_partial (x y : Storage) (hx : Written x) (hy : Written y) :
    x = y ↔ text x = text y := by
  have key : ∀ x : Storage, Written x → x = ofLiteral (text x) := by
    intro x hx
    cases hx with
    | literal hs => rw [(C94_cpp20 _ hs 1 (by decide)).1]
    | concatenation x1 x2 => rw [C94_concatenation, append_storage]
    | part h =>
      rename_i p c x1
      have h2 := C94_part p c x1
      rw [h] at h2
      unfold substr at h
      split at h
      · rename_i hl
        rw [text_length, if_pos hl, Option.map_some, Option.some.injEq] at h2
        have hle := size_le x1
        cases h
        rw [h2, map_getD_from x1 p c (by omega)]
        unfold ofLiteral text
        rw [List.drop_take, List.take_take, Nat.min_eq_left (by omega)]
      · cases h
  refine ⟨fun h => by rw [h], fun h => ?_⟩
  rw [key x hx, key y hy, h]

/-- The hypotheses are met by a literal and by a concatenation with a character. -/
example : Written (ofLiteral (b "--help")) ∧
    Written (append (ofLiteral (b "--hel")) (ofChar 112)) ∧
    append (ofLiteral (b "--hel")) (ofChar 112) = ofLiteral (b "--help") :=
  ⟨.literal (by unfold NoNull; decide +kernel), .concatenation _ _, by decide +kernel⟩

/-- C94 is false: in C++20 a character and a literal of one character are different types with the same
text, and so are a literal and an array. -/
theorem C94_types_false : text (ofChar 104) = text (ofLiteral (b "h")) ∧
    ofChar 104 ≠ ofLiteral (b "h") ∧
    text (ofArray (b "help")) = text (ofLiteral (b "help")) ∧
    ofArray (b "help") ≠ ofLiteral (b "help") := by decide +kernel

/-- C94 with null characters is false: in C++17 they are left out, in C++20 they end the text, and with
them `S_` cuts texts it would refuse otherwise. -/
theorem C94_null_false : Cts17.make 128 (.literal [97, 0, 98]) = some [97, 98] ∧
    text (ofLiteral [97, 0, 98]) = [97] ∧
    Cts17.make 4 (.literal [97, 0, 98, 99, 100, 101]) = some [97, 98, 99] := by decide +kernel

/-! ## Programs -/

section mapNames

variable {f : Bytes → Bytes}

theorem mapNamesList_eq (cs : List Node) : Node.mapNamesList f cs = cs.map (Node.mapNames f) := by
  induction cs with
  | nil => rfl
  | cons c cs ih => rw [Node.mapNamesList, ih]; rfl

theorem mapNames_policies (n : Node) :
    (n.mapNames f).policies = n.policies.map (Policy.mapName f) := by cases n; rfl
theorem mapNames_children (n : Node) :
    (n.mapNames f).children = n.children.map (Node.mapNames f) := by
  cases n; exact mapNamesList_eq _
theorem mapNames_kind (n : Node) : (n.mapNames f).kind = n.kind := by cases n; rfl
theorem mapNames_hash (n : Node) : (n.mapNames f).hash = n.hash := by cases n; rfl

theorem mapName_kind (p : Policy) : (p.mapName f).kind = p.kind := by cases p <;> rfl

theorem mapName_nameType (p : Policy) :
    (p.mapName f).nameType = p.nameType.map fun x => (x.1, f x.2) := by cases p <;> rfl

theorem mapNames_has (n : Node) (k : PKind) : (n.mapNames f).has k = n.has k := by
  unfold Node.has
  rw [mapNames_policies, List.any_map]
  congr 1
  funext p
  simp [mapName_kind]

theorem mapNames_countKind (n : Node) (k : PKind) :
    (n.mapNames f).countKind k = n.countKind k := by
  unfold Node.countKind
  rw [mapNames_policies, List.countP_map]
  congr 1
  funext p
  simp [mapName_kind]

theorem mapNames_find {α : Type} (g : Policy → Option α) (hg : ∀ p, g (p.mapName f) = g p) (n : Node) :
    (n.mapNames f).policies.findSome? g = n.policies.findSome? g := by
  rw [mapNames_policies, List.findSome?_map]
  congr 1
  funext p
  exact hg p

theorem mapNames_count (n : Node) : (n.mapNames f).minMaxCount = n.minMaxCount :=
  mapNames_find _ (fun p => by cases p <;> rfl) n

theorem mapNames_any (g : Policy → Bool) (hg : ∀ p, g (p.mapName f) = g p) (n : Node) :
    (n.mapNames f).policies.any g = n.policies.any g := by
  rw [mapNames_policies, List.any_map]
  congr 1
  funext p
  exact hg p

theorem mapNames_listLike (n : Node) : (n.mapNames f).isListLike = n.isListLike := by
  have h1 : (n.mapNames f).isMultiStage = n.isMultiStage :=
    mapNames_any _ (fun p => by cases p <;> rfl) n
  have h2 : (n.mapNames f).hasTokenEndMarker = n.hasTokenEndMarker :=
    mapNames_any _ (fun p => by cases p <;> rfl) n
  unfold Node.isListLike
  rw [mapNames_count, h1, h2]

theorem mapNames_anonymous (n : Node) : (n.mapNames f).isAnonymous = n.isAnonymous := by
  unfold Node.isAnonymous Node.noneName
  rw [mapNames_policies, List.findSome?_map]
  induction n.policies with
  | nil => rfl
  | cons p ps ih =>
    cases p <;> simp only [List.findSome?_cons, Function.comp, Policy.mapName] at ih ⊢ <;> first | rfl | exact ih

theorem mapNames_anonMode (modes : List Kind) (n : Node) :
    (n.mapNames f).isAnonMode modes = n.isAnonMode modes := by
  unfold Node.isAnonMode
  rw [mapNames_kind, mapNames_anonymous]

/-- A visit of the tree with other names. -/
def mapItem (f : Bytes → Bytes) : Item → Item
  | .node n => .node (n.mapNames f)
  | .policy p => .policy (p.mapName f)

def mapVisit (f : Bytes → Bytes) (v : Visit) : Visit := (mapItem f v.1, v.2.map (Node.mapNames f))

mutual
theorem typeWalk_map {skip skip' : Item → List Node → Bool}
    (hs : ∀ it ps, skip' (mapItem f it) (ps.map (Node.mapNames f)) = skip it ps) :
    ∀ (n : Node) (ps : List Node), typeWalk skip' (ps.map (Node.mapNames f)) (n.mapNames f) =
      (typeWalk skip ps n).map (mapVisit f)
  | .mk k u h v p cs, ps => by
    have h1 := hs (.node (.mk k u h v p cs)) ps
    have h2 := fun q => hs (.policy q) (.mk k u h v p cs :: ps)
    have h3 := typeWalkList_map hs cs (.mk k u h v p cs :: ps)
    simp only [mapItem, Node.mapNames, List.map_cons] at h1 h2 h3
    rw [Node.mapNames, typeWalk, typeWalk, h1]
    split
    · rfl
    · rw [h3]
      simp only [List.map_cons, List.map_append, List.map_map, List.cons_append, mapVisit, mapItem,
        Node.mapNames, List.filter_map]
      congr 2
      have hf : ((fun q => !skip' (.policy q)
            (.mk k u h v (p.map (Policy.mapName f)) (Node.mapNamesList f cs) ::
              ps.map (Node.mapNames f))) ∘ Policy.mapName f) =
          fun q => !skip (.policy q) (.mk k u h v p cs :: ps) := by
        funext q
        simp only [Function.comp, h2]
      rw [hf]
      apply List.map_congr_left
      intro q hq
      simp only [Function.comp, mapVisit, mapItem, List.map_cons, Node.mapNames]
theorem typeWalkList_map {skip skip' : Item → List Node → Bool}
    (hs : ∀ it ps, skip' (mapItem f it) (ps.map (Node.mapNames f)) = skip it ps) :
    ∀ (cs : List Node) (ps : List Node),
      typeWalkList skip' (ps.map (Node.mapNames f)) (Node.mapNamesList f cs) =
        (typeWalkList skip ps cs).map (mapVisit f)
  | [], ps => rfl
  | c :: cs, ps => by
    rw [Node.mapNamesList, typeWalkList, typeWalkList, List.map_append, typeWalk_map hs c ps,
      typeWalkList_map hs cs ps]
end

theorem skip_map (modes : List Kind) (start : Node) (it : Item) (ps : List Node) :
    skipOtherModes modes (start.mapNames f) (mapItem f it) (ps.map (Node.mapNames f)) =
      skipOtherModes modes start it ps := by
  cases it with
  | policy p => rfl
  | node n => simp only [skipOtherModes, mapItem, mapNames_hash, mapNames_kind]

theorem pathToMode_map (modes : List Kind) (ps : List Node) :
    pathToMode modes (ps.map (Node.mapNames f)) = (pathToMode modes ps).map (Node.mapNames f) := by
  unfold pathToMode
  rw [List.map_take, List.length_map, List.findIdx_map]
  congr 3
  congr 1
  congr 1
  funext n
  simp [mapNames_kind]

theorem noClash_map (hf : ∀ s t, f s = f t → s = t) (it : Item) (path : List Node)
    (v : Visit) :
    noClash (mapItem f it) (path.map (Node.mapNames f)) (mapVisit f v) = noClash it path v := by
  have hh : ∀ ps : List Node, (ps.map (Node.mapNames f)).map Node.hash = ps.map Node.hash := by
    intro ps
    rw [List.map_map]
    apply List.map_congr_left
    intro n _
    exact mapNames_hash n
  unfold noClash mapVisit
  rw [hh, hh]
  congr 2
  cases it with
  | node m =>
    cases v.1 with
    | node n => simp [Item.sameType, mapItem, mapNames_hash]
    | policy q => rfl
  | policy p =>
    cases v.1 with
    | node n => rfl
    | policy q =>
      simp only [Item.sameType, mapItem, mapName_nameType]
      cases p.nameType with
      | none => rfl
      | some ns =>
        cases q.nameType with
        | none => rfl
        | some nt =>
          obtain ⟨k, s⟩ := ns
          obtain ⟨k', t⟩ := nt
          rw [Bool.eq_iff_iff]
          simp only [Option.map_some, beq_iff_eq, Prod.mk.injEq]
          exact ⟨fun h => ⟨h.1, hf _ _ h.2⟩, fun h => ⟨h.1, by rw [h.2]⟩⟩

theorem atEnd_map (kinds : List Kind) (cs : List Node) :
    nodesAtEndCheck kinds (cs.map (Node.mapNames f)) = nodesAtEndCheck kinds cs := by
  unfold nodesAtEndCheck
  rw [List.map_map]
  have : ((fun c : Node => kinds.contains c.kind) ∘ Node.mapNames f) =
      fun c => kinds.contains c.kind := by
    funext c
    simp [mapNames_kind]
  rw [this]

theorem fixedCount_map (cs : List Node) :
    fixedCountCheck (cs.map (Node.mapNames f)) = fixedCountCheck cs := by
  unfold fixedCountCheck
  have : (Node.isListLike ∘ Node.mapNames f) = Node.isListLike := by
    funext c
    exact mapNames_listLike c
  rw [List.countP_map, List.findIdx_map, List.length_map, this]

theorem holds_map (hf : ∀ s t, f s = f t → s = t) (c : Condition) (it : Item) (ps : List Node) :
    c.holds (mapItem f it) (ps.map (Node.mapNames f)) = c.holds it ps := by
  have hany : ∀ (g : Node → Bool) (cs : List Node), (∀ n : Node, g (n.mapNames f) = g n) →
      (cs.map (Node.mapNames f)).any g = cs.any g := by
    intro g cs hg
    rw [List.any_map]
    congr 1
    funext n
    exact hg n
  have hall : ∀ (g : Node → Bool) (cs : List Node), (∀ n : Node, g (n.mapNames f) = g n) →
      (cs.map (Node.mapNames f)).all g = cs.all g := by
    intro g cs hg
    rw [List.all_map]
    congr 1
    funext n
    exact hg n
  have hfn : ∀ n : Node, (n.mapNames f).has = n.has := fun n => funext (mapNames_has n)
  cases c with
  | uniqueInOwner =>
    cases ps <;> cases it <;>
      simp [Condition.holds, mapItem, mapName_kind, mapNames_countKind]
  | uniqueToMode modes =>
    simp only [Condition.holds, List.length_map]
    split
    · simp only [pathToMode_map, List.getLast?_map]
      cases hl : (pathToMode modes ps).getLast? with
      | none => rfl
      | some start =>
        simp only [Option.map_some]
        have := typeWalk_map (skip_map (f := f) modes start) start []
        rw [List.map_nil] at this
        rw [this, List.all_map]
        congr 1
        funext v
        exact noClash_map hf it _ v
    · rfl
  | parentTypes pairs =>
    simp only [Condition.holds]
    congr 1
    funext x
    obtain ⟨i, k⟩ := x
    rw [List.getElem?_map]
    cases ps[i]? with
    | none => rfl
    | some n => simp [mapNames_kind]
  | parentMustNotHave k =>
    cases ps <;> cases it <;> simp [Condition.holds, mapItem, mapNames_has]
  | minOneIfRequired =>
    cases it with
    | policy p => rfl
    | node n =>
      simp only [Condition.holds, mapItem, Node.isRequired, Node.minCount, mapNames_has,
        mapNames_count]
  | childMustHave k =>
    cases it with
    | policy p => rfl
    | node n =>
      simp only [Condition.holds, mapItem, mapNames_children]
      exact hall _ _ fun n => mapNames_has n k
  | childMustNotHave k =>
    cases it with
    | policy p => rfl
    | node n =>
      simp only [Condition.holds, mapItem, mapNames_children, List.length_map]
      rw [hall _ _ fun n => mapNames_has n k]
  | singleAnonymousMode modes =>
    cases it with
    | policy p => rfl
    | node n =>
      have : (Node.isAnonMode modes ∘ Node.mapNames f) = Node.isAnonMode modes := by
        funext c
        exact mapNames_anonMode modes c
      simp only [Condition.holds, mapItem, mapNames_children, List.countP_map, this]
  | anonymousAtEnd modes =>
    cases it with
    | policy p => rfl
    | node n =>
      simp only [Condition.holds, mapItem, mapNames_children, atEnd_map]
      rw [hany _ _ fun n => mapNames_anonMode modes n]
  | _ =>
    cases it <;> simp [Condition.holds, mapItem, hfn, mapNames_children, atEnd_map, fixedCount_map]

theorem matches_map (key : RuleKey) (it : Item) : key.matches (mapItem f it) = key.matches it := by
  cases key <;> cases it <;> simp [RuleKey.matches, mapItem, mapNames_kind, mapName_kind]

/-- The rules do not depend on what the names are, only on which of them are equal. -/
theorem validate_map (hf : ∀ s t, f s = f t → s = t) (rules : List Rule) (n : Node) :
    validate rules (n.mapNames f) = validate rules n := by
  unfold validate
  have := typeWalk_map (f := f) (skip := noSkip) (skip' := noSkip) (fun _ _ => rfl) n []
  rw [List.map_nil] at this
  rw [this, List.all_map]
  congr 1
  funext v
  simp only [Function.comp, checkItem, mapVisit, matches_map]
  split
  · rfl
  · congr 1
    funext c
    exact holds_map hf c _ _

theorem mapName_id {p : Policy} (h : ∀ k s, p.nameType = some (k, s) → f s = s) : p.mapName f = p := by
  cases p <;> simp only [Policy.mapName, Policy.nameType] at h ⊢ <;> rw [h _ _ rfl]

theorem mapNames_id : ∀ (n : Node),
    (∀ m ∈ n.nodes, ∀ p ∈ m.policies, ∀ k s, p.nameType = some (k, s) → f s = s) → n.mapNames f = n
  | .mk k u h v p cs => by
    intro hn
    have h1 := hn _ (self_mem_nodes _)
    rw [Node.mapNames, mapNamesList_eq]
    congr 1
    · conv => rhs; rw [← List.map_id p]
      exact List.map_congr_left fun q hq => mapName_id (h1 q hq)
    · conv => rhs; rw [← List.map_id cs]
      exact List.map_congr_left fun c hc => mapNames_id c fun m hm =>
        hn m (child_mem_nodes (n := .mk k u h v p cs) hc m hm)

mutual
theorem mapNames_comp (g : Bytes → Bytes) : ∀ n : Node,
    (n.mapNames f).mapNames g = n.mapNames (g ∘ f)
  | .mk k u h v p cs => by
    rw [Node.mapNames, Node.mapNames, Node.mapNames, mapNamesList_comp g cs, List.map_map]
    congr 1
    apply List.map_congr_left
    intro q _
    cases q <;> rfl
theorem mapNamesList_comp (g : Bytes → Bytes) : ∀ cs : List Node,
    Node.mapNamesList g (Node.mapNamesList f cs) = Node.mapNamesList (g ∘ f) cs
  | [] => rfl
  | c :: cs => by
    rw [Node.mapNamesList, Node.mapNamesList, Node.mapNamesList, mapNames_comp g c,
      mapNamesList_comp g cs]
end

end mapNames

/-- C94: a program all of whose names are written as literals is in C++20 what it is in C++17: it
compiles if and only if it does there, and runs the same. -/
theorem C94_program_partial (cfg : Config) (depth : Nat) (rules : List Rule) (tree : Node)
    (hn : ∀ n ∈ tree.nodes, ∀ p ∈ n.policies, ∀ k s, p.nameType = some (k, s) → NoNull s) :
    (tree.mapNames ofLiteral).run20 = tree ∧
      compiles20 cfg depth rules (tree.mapNames ofLiteral) = compiles cfg depth rules tree := by
  have hrun : (tree.mapNames ofLiteral).run20 = tree := by
    unfold Node.run20
    rw [mapNames_comp]
    refine mapNames_id tree fun m hm p hp k s h => ?_
    exact (C94_cpp20 s (hn m hm p hp k s h) 1 (by decide)).1
  refine ⟨hrun, ?_⟩
  unfold compiles20 compiles
  rw [hrun, mapNames_kind, validate_map]
  intro s t h
  exact List.append_cancel_right h

namespace CtsEx

/-- A program with the flags `--hidden` and `--human`, and their short names. -/
def names (x y : Bytes) (f : Bytes → Bytes) : Node :=
  mkRoot 1 1 [mkMode 2 2 [.router] [
    mkFlag .default 3 3 [.longName (f (b "hidden")), .shortName x],
    mkFlag .default 4 4 [.longName (f (b "human")), .shortName y]]]

def twice : Node := names (b "h") (b "h") id
/-- The same in C++20, `policy::short_name<'h'>` and `policy::short_name_t{"h"_S}`. -/
def twice20 : Node := names (ofChar 104) (ofLiteral (b "h")) ofLiteral
def once : Node := names (b "h") (b "u") id

end CtsEx

open CtsEx

/-- C94 is false for programs: two flags of a mode with the short name `h`, one written as a character
and the other as a literal, compile in C++20; they do not in C++17. -/
theorem C94_program_false : twice20.run20.nodes.filterMap Node.shortName = [b "h", b "h"] ∧
    compiles20 .default 100 defaultRules twice20 = true ∧
    compiles .default 100 defaultRules twice = false ∧
    (parseArgs .default twice20.run20 [b "-h"] .fresh).1 =
      (parseArgs .default twice20.run20 [b "--hidden"] .fresh).1 := by decide +kernel

/-- The hypotheses of `C94_program_partial` are met by a program that compiles and by one that does
not. -/
example : (∀ t ∈ [once, twice], ∀ n ∈ t.nodes, ∀ p ∈ n.policies, ∀ k s, p.nameType = some (k, s) →
      NoNull s) ∧
    compiles .default 100 defaultRules once = true ∧
    compiles .default 100 defaultRules twice = false := by
  refine ⟨?_, by decide +kernel, by decide +kernel⟩
  intro t ht n hn p hp k s h
  have := List.all_eq_true.1 (by decide +kernel : [once, twice].all (fun t => t.nodes.all fun n =>
    n.policies.all fun p => match p.nameType with
      | some (_, s) => s.all (· != 0)
      | none => true) = true) t ht
  have := List.all_eq_true.1 (List.all_eq_true.1 this n hn) p hp
  rw [h] at this
  intro c hc
  simpa using List.all_eq_true.1 this c hc

end Props

end ArgRouter

import Verif.Props.Help
import Verif.Props.Decimal
import Verif.Props.Compile

/-!
# C82: what help labels say
-/

namespace ArgRouter.Spec

/-- The decimal notation of an integer. -/
def Decimal (v : Int) (t : Bytes) : Prop := ∃ ds, IsDecimal ds v.natAbs ∧ t = signed v ds

/-- No digit of the integer, except perhaps the last, is a zero. -/
def NoInnerZero (v : Int) : Prop := ∀ ds, IsDecimal ds v.natAbs → ∀ d ∈ ds.dropLast, d ≠ 0

/-- The integers shown in a node's label. -/
inductive Figure (info : HelpInfo) (n : Node) : Int → Prop where
  | low {r v} : info.range n = some r → r.lo = some v → Figure info n v
  | high {r v} : info.range n = some r → r.hi = some v → Figure info n v
  | least {k m : Nat} : n.minMaxCount = some (k, m) → Figure info n k
  | most {k m : Nat} : n.minMaxCount = some (k, m) → m ≠ sizeMax → Figure info n m

end ArgRouter.Spec

namespace ArgRouter.Props
open ArgRouter Utf8 Spec

/-- How the library writes an integer, see C49. -/
def Written (v : Int) (t : Bytes) : Prop := t = ctsOfInt v

theorem written (v : Int) : Written v (ctsOfInt v) := rfl

theorem ranged_none {info : HelpInfo} {n : Node}
    (h : info.range n = none ∨ ∃ r, info.range n = some r ∧ r.lo = none ∧ r.hi = none) :
    ¬ ∃ r, Ranged info n r := by
  rintro ⟨r, hr, hb⟩
  rcases h with h | ⟨r', h, h1, h2⟩
  · rw [h] at hr; simp at hr
  · rw [h, Option.some.injEq] at hr
    subst hr
    rcases hb with hb | hb
    · exact hb h1
    · exact hb h2

theorem valueSuffix_cases (info : HelpInfo) (n : Node) :
    ((¬ ∃ r, Ranged info n r) ∧ n.valueSuffix info = []) ∨
    ∃ r lo hi, Ranged info n r ∧ LowText Written r lo ∧ HighText Written r hi ∧
      n.valueSuffix info = b "<" ++ lo ++ b "-" ++ hi ++ b ">" := by
  unfold Node.valueSuffix
  cases hr : info.range n with
  | none => exact .inl ⟨ranged_none (.inl hr), rfl⟩
  | some r =>
    dsimp only
    by_cases hb : r.lo = none ∧ r.hi = none
    · rw [if_pos (by rw [hb.1, hb.2]; rfl)]
      exact .inl ⟨ranged_none (.inr ⟨r, hr, hb⟩), rfl⟩
    · have hb' : ¬ (r.lo.isNone && r.hi.isNone) = true := by
        simpa using hb
      rw [if_neg hb']
      refine .inr ⟨r, _, _, ⟨hr, by
        rcases Classical.em (r.lo = none) with h1 | h1
        · exact .inr fun h2 => hb ⟨h1, h2⟩
        · exact .inl h1⟩, ?_, ?_, rfl⟩
      · cases hlo : r.lo with
        | some v => exact .bound hlo (written v)
        | none =>
          cases hu : r.unsigned with
          | true => exact .natural hlo hu
          | false => exact .unbounded hlo hu
      · cases hhi : r.hi with
        | some v => exact .bound hhi (written v)
        | none => exact .unbounded hhi

theorem valueSuffix_range (info : HelpInfo) (n : Node) :
    RangeText Written info n (n.valueSuffix info) := by
  rcases valueSuffix_cases info n with ⟨h, he⟩ | ⟨r, lo, hi, h, h1, h2, he⟩ <;> rw [he]
  · exact .none h
  · exact .range h h1 h2

theorem placeholder_text (info : HelpInfo) (n : Node) : ValuePlace Written info n
    (if n.valueSuffix info == [] then b "<Value>" else n.valueSuffix info) := by
  rcases valueSuffix_cases info n with ⟨h, he⟩ | ⟨r, lo, hi, h, h1, h2, he⟩
  · rw [he]; exact .value h
  · have hr := valueSuffix_range info n
    have hne : (n.valueSuffix info == []) = false := by
      rw [he]; simp [show b "<" = [60] by decide +kernel]
    rw [hne]
    exact .range h hr

theorem separator_none {n : Node} (h : n.separator = none) (s : Bytes) :
    Policy.valueSeparator s ∉ n.policies := by
  intro hs
  have := List.findSome?_eq_none_iff.1 h _ hs
  simp at this

theorem separator_some {n : Node} {s : Bytes} (h : n.separator = some s) :
    Policy.valueSeparator s ∈ n.policies := by
  obtain ⟨p, hp, hs⟩ := List.exists_of_findSome?_eq_some h
  cases p <;> simp at hs
  subst hs
  exact hp

theorem valueSeparatorSuffix_text (info : HelpInfo) (n : Node) :
    ValueText Written info n (n.valueSeparatorSuffix info) := by
  unfold Node.valueSeparatorSuffix
  dsimp only
  cases hs : n.separator with
  | some s => exact .separated (separator_some hs) (placeholder_text info n)
  | none =>
    dsimp only
    by_cases hm : n.minMaxCount = some (1, 1)
    · rw [if_pos (by rw [hm]; rfl)]
      exact .spaced (separator_none hs) hm (placeholder_text info n)
    · rw [if_neg (by simpa using hm)]
      exact .none (separator_none hs) hm

theorem labelGenerator_text (info : HelpInfo) (n : Node)
    (h : n.longName ≠ none ∨ n.shortName ≠ none ∨ n.noneName ≠ none) :
    ∃ names value, NamesText info.cfg n names ∧ ValueText Written info n value ∧
      n.labelGenerator info = names ++ value := by
  have hv := valueSeparatorSuffix_text info n
  unfold Node.labelGenerator
  cases hl : n.longName with
  | some l =>
    cases hs : n.shortName with
    | some s => exact ⟨_, _, .both hl hs, hv, rfl⟩
    | none => exact ⟨_, _, .long hl hs, hv, rfl⟩
  | none =>
    cases hs : n.shortName with
    | some s => exact ⟨_, _, .short hl hs, hv, rfl⟩
    | none =>
      cases hn : n.noneName with
      | some s => exact ⟨_, _, .plain hl hs hn, hv, rfl⟩
      | none => simp [hl, hs, hn] at h

theorem countSuffix_text (n : Node) : CountText Written n n.countSuffix := by
  unfold Node.countSuffix
  rcases hm : n.minMaxCount with _ | ⟨mn, mx⟩
  · exact .any hm
  · dsimp only
    by_cases he : mn = mx
    · subst he
      rw [if_pos (by simp)]
      exact .fixed hm (written _)
    · rw [if_neg (by simpa using he)]
      by_cases hx : mx = sizeMax
      · subst hx
        rw [if_pos (by simp)]
        have := CountText.atLeast (Num := Written) hm he (written mn)
        rw [show b ",N]" = b "," ++ (b "N" ++ b "]") by decide +kernel] at this
        simpa only [List.append_assoc] using this
      · rw [if_neg (by simpa using hx)]
        exact .between hm he hx (written _) (written _)

theorem helpLabel_text (info : HelpInfo) (n : Node) (h : Labelled n) :
    LabelText Written info n (n.helpLabel info) := by
  unfold Node.helpLabel
  split
  · rename_i hk
    obtain ⟨ns, v, h1, h2, h3⟩ := labelGenerator_text info n (h.named (by rw [hk]; decide))
    rw [h3]; exact .leaf (by rw [hk]; decide) h1 h2
  · rename_i hk
    obtain ⟨ns, v, h1, h2, h3⟩ := labelGenerator_text info n (h.named (by rw [hk]; decide))
    rw [h3]; exact .leaf (by rw [hk]; decide) h1 h2
  · rename_i hk
    obtain ⟨ns, v, h1, h2, h3⟩ := labelGenerator_text info n (h.named (by rw [hk]; decide))
    rw [h3]; exact .leaf (by rw [hk]; decide) h1 h2
  · rename_i hk
    obtain ⟨ns, v, h1, h2, h3⟩ := labelGenerator_text info n (h.named (by rw [hk]; decide))
    rw [h3]; exact .leaf (by rw [hk]; decide) h1 h2
  · rename_i hk
    obtain ⟨ns, v, h1, h2, h3⟩ := labelGenerator_text info n (h.named (by rw [hk]; decide))
    rw [h3]; exact .multi (by rw [hk]; decide) h1 h2 (countSuffix_text n)
  · rename_i hk
    obtain ⟨ns, v, h1, h2, h3⟩ := labelGenerator_text info n (h.named (by rw [hk]; decide))
    rw [h3]; exact .multi (by rw [hk]; decide) h1 h2 (countSuffix_text n)
  · rename_i hk
    obtain ⟨d, hd⟩ := Option.ne_none_iff_exists'.1 (h.displayed (by rw [hk]; decide))
    rw [hd]; exact .positional hk hd (countSuffix_text n)
  · rename_i hk
    obtain ⟨d, hd⟩ := Option.ne_none_iff_exists'.1 (h.displayed (by rw [hk]; decide))
    rw [hd]; exact .aliasGroup hk hd (valueSuffix_range info n)
  · rename_i hk
    obtain ⟨d, hd⟩ := Option.ne_none_iff_exists'.1 (h.displayed (by rw [hk]; decide))
    rw [hd]; exact .oneOf hk hd
  · rename_i hk
    by_cases ha : n.isAnonymous = true
    · rw [if_pos ha]; exact .anonymous hk ha
    · rw [if_neg ha]
      have ha' : n.isAnonymous = false := by simpa using ha
      obtain ⟨ns, v, h1, h2, h3⟩ := labelGenerator_text info n
        (.inr (.inr (by intro hn; rw [Node.isAnonymous, hn] at ha; simp at ha)))
      rw [h3]; exact .mode hk ha' h1 h2
  · rename_i hk
    exact .root hk

section
variable {P Q : Int → Bytes → Prop} {info : HelpInfo} {n : Node}

theorem RangeText.mono (h : ∀ v, Figure info n v → ∀ t, P v t → Q v t) {t : Bytes}
    (ht : RangeText P info n t) : RangeText Q info n t := by
  cases ht with
  | none hr => exact .none hr
  | range hr h1 h2 =>
    refine .range hr ?_ ?_
    · cases h1 with
      | bound hl hp => exact .bound hl (h _ (.low hr.1 hl) _ hp)
      | natural a c => exact .natural a c
      | unbounded a c => exact .unbounded a c
    · cases h2 with
      | bound hl hp => exact .bound hl (h _ (.high hr.1 hl) _ hp)
      | unbounded a => exact .unbounded a

theorem ValuePlace.mono (h : ∀ v, Figure info n v → ∀ t, P v t → Q v t) {t : Bytes}
    (ht : ValuePlace P info n t) : ValuePlace Q info n t := by
  cases ht with
  | value hr => exact .value hr
  | range hr h1 => exact .range hr (RangeText.mono h h1)

theorem ValueText.mono (h : ∀ v, Figure info n v → ∀ t, P v t → Q v t) {t : Bytes}
    (ht : ValueText P info n t) : ValueText Q info n t := by
  cases ht with
  | separated h1 h2 => exact .separated h1 (ValuePlace.mono h h2)
  | spaced h1 h2 h3 => exact .spaced h1 h2 (ValuePlace.mono h h3)
  | none h1 h2 => exact .none h1 h2

theorem CountText.mono (h : ∀ v, Figure info n v → ∀ t, P v t → Q v t) {t : Bytes}
    (ht : CountText P n t) : CountText Q n t := by
  cases ht with
  | any h1 => exact .any h1
  | fixed h1 h2 => exact .fixed h1 (h _ (.least h1) _ h2)
  | between h1 h2 h3 h4 h5 =>
    exact .between h1 h2 h3 (h _ (.least h1) _ h4) (h _ (.most h1 h3) _ h5)
  | atLeast h1 h2 h3 => exact .atLeast h1 h2 (h _ (.least h1) _ h3)

theorem LabelText.mono (h : ∀ v, Figure info n v → ∀ t, P v t → Q v t) {t : Bytes}
    (ht : LabelText P info n t) : LabelText Q info n t := by
  cases ht with
  | leaf h1 h2 h3 => exact .leaf h1 h2 (ValueText.mono h h3)
  | multi h1 h2 h3 h4 => exact .multi h1 h2 (ValueText.mono h h3) (CountText.mono h h4)
  | positional h1 h2 h3 => exact .positional h1 h2 (CountText.mono h h3)
  | aliasGroup h1 h2 h3 => exact .aliasGroup h1 h2 (RangeText.mono h h3)
  | oneOf h1 h2 => exact .oneOf h1 h2
  | mode h1 h2 h3 h4 => exact .mode h1 h2 h3 (ValueText.mono h h4)
  | anonymous h1 h2 => exact .anonymous h1 h2
  | root h1 => exact .root h1

end

/-- C82, exactly what the code shows: the label of a node consists of its names with their prefixes,
the value it takes and the number of values, in the way its class asks for; but the integers in it
are written without those zeros that are followed by another digit. -/
theorem C82_exact (info : HelpInfo) (n : Node) (h : Labelled n) :
    LabelText (fun v t => ∃ ds, IsDecimal ds v.natAbs ∧ t = signed v (keptDigits ds)) info n
      (n.helpLabel info) := by
  refine LabelText.mono ?_ (helpLabel_text info n h)
  rintro v - t rfl
  obtain ⟨ds, hds⟩ := decimal_exists v.natAbs
  exact ⟨ds, hds, C49_exact v ds hds⟩

/-- C82, the true part: if none of the numbers in the label has a zero before its last digit, they are
shown in decimal notation. Missing from the full statement: all other numbers, see `C82_false`. -/
theorem C82_label_partial (info : HelpInfo) (n : Node) (h : Labelled n)
    (hz : ∀ v, Figure info n v → NoInnerZero v) :
    LabelText Decimal info n (n.helpLabel info) := by
  refine LabelText.mono ?_ (helpLabel_text info n h)
  rintro v hv t rfl
  obtain ⟨ds, hds⟩ := decimal_exists v.natAbs
  exact ⟨ds, hds, (C49_decimal_partial v ds hds).2 (hz v hv ds hds)⟩

/-! Examples: a port number, a list of files and a group. -/

def lPort : Node := .mk .arg 1 101 strT
  [.longName (b "port"), .shortName (b "p"), .valueSeparator (b "="), .minMaxCount 1 1] []
def lFiles (most : Nat) : Node := .mk .positional 2 102 strT
  [.displayName (b "files"), .minMaxCount 2 most] []
def lDirs : Node := .mk .multiArg 3 103 strT [.shortName (b "I"), .minMaxCount 1 sizeMax] []
def lInfo (r : CtRange) : HelpInfo := ⟨.default, fun n => if n.uid == 1 then some r else none⟩

/-- What the labels of the examples look like. -/
theorem labels_shown :
    lPort.helpLabel (lInfo ⟨some 1, some 65535, true⟩) = b "--port,-p=<1-65535>" ∧
    lPort.helpLabel (lInfo ⟨none, some (-5), false⟩) = b "--port,-p=<-N--5>" ∧
    lPort.helpLabel (lInfo ⟨none, none, true⟩) = b "--port,-p=<Value>" ∧
    (lFiles 15).helpLabel hInfo = b "<files> [2,15]" ∧
    lDirs.helpLabel hInfo = b "-I [1,N]" := by
  decide +kernel

/-- Every node of a program that compiles has the name its label needs, so the theorems above hold for
every label of every program. -/
theorem C82_compiled {cfg : Config} {depth : Nat} {rules : List Rule} {root n : Node} {p : List Nat}
    (hc : compiles cfg depth rules root = true) (hn : nodeAt root p = some n) : Labelled n := by
  obtain ⟨-, -, hnodes⟩ := compiles_iff_parts hc
  obtain ⟨h1, h2, -⟩ := nodeAsserts_parts (hnodes p n hn)
  constructor
  · intro hk
    simp only [List.mem_cons, List.not_mem_nil, or_false] at hk
    rcases hk with hk | hk | hk | hk | hk | hk <;>
      simp only [classAsserts, multiArgBaseAsserts, Node.hasLabel, Node.isNamed, hk,
        Bool.and_eq_true, Bool.or_eq_true, Option.isNone_iff_eq_none] at h2
    · rcases h2.1.1.1.2 with h | h <;> simp [Option.isSome_iff_ne_none.1 h]
    · rcases h2.1.1.1.2 with h | h <;> simp [Option.isSome_iff_ne_none.1 h]
    · rcases h2.1.1.2 with ((h | h) | h) | h
      · simp [Option.isSome_iff_ne_none.1 h]
      · simp [Option.isSome_iff_ne_none.1 h]
      · simp [Option.isSome_iff_ne_none.1 h]
      · rw [h2.2] at h; simp at h
    · rcases h2.1.1.1.1.2 with h | h <;> simp [Option.isSome_iff_ne_none.1 h]
    · rcases h2.1.1.1.1.1.2 with ((h | h) | h) | h
      · simp [Option.isSome_iff_ne_none.1 h]
      · simp [Option.isSome_iff_ne_none.1 h]
      · simp [Option.isSome_iff_ne_none.1 h]
      · rw [h2.1.1.1.2] at h; simp at h
    · rcases h2.1.1.1.1.2 with ((h | h) | h) | h
      · simp [Option.isSome_iff_ne_none.1 h]
      · simp [Option.isSome_iff_ne_none.1 h]
      · simp [Option.isSome_iff_ne_none.1 h]
      · rw [h2.1.1.1.2] at h; simp at h
  · intro hk
    simp only [List.mem_cons, List.not_mem_nil, or_false] at hk
    rcases hk with hk | hk | hk <;>
      simp only [classAsserts, classPolicies, hk, Bool.and_eq_true] at h1 h2
    · exact Option.isSome_iff_ne_none.1 h2.1.1.1.1.2
    · exact Option.isSome_iff_ne_none.1 h1.1
    · exact Option.isSome_iff_ne_none.1 h1.1

example : Labelled lPort ∧ Labelled (lFiles 15) :=
  ⟨⟨fun _ => .inl (show lPort.longName ≠ none by decide +kernel),
      fun h => by simp [lPort, Node.kind] at h⟩,
    fun h => by simp [lFiles, Node.kind] at h,
    fun _ => show (lFiles 15).displayName ≠ none by decide +kernel⟩

example : ∀ v, Figure hInfo (lFiles 15) v → NoInnerZero v := by
  intro v hv
  have hm : (lFiles 15).minMaxCount = some (2, 15) := rfl
  have h : v = 2 ∨ v = 15 := by
    cases hv with
    | low h => simp [hInfo] at h
    | high h => simp [hInfo] at h
    | least h => rw [hm] at h; simp at h; omega
    | most h _ => rw [hm] at h; simp at h; omega
  intro ds hds d hd
  have hl := numDigits_decimal hds
  rcases h with rfl | rfl
  · rw [show numDigits ((2 : Int).natAbs : Nat) = 1 from rfl] at hl
    match ds, hl with
    | [a], _ => simp at hd
  · rw [show numDigits ((15 : Int).natAbs : Nat) = 2 by decide +kernel] at hl
    match ds, hl with
    | [a, c], _ =>
      simp at hd
      rintro rfl
      have := hds.2.2.2 (by simp [hd])
      simp at this

/-- C82 is false: a count of two to 105 values is shown like one of two to 15, and the range from 1 to
1000 like the one from 1 to 10. -/
theorem C82_false :
    (lFiles 105).helpLabel hInfo = b "<files> [2,15]" ∧
    lPort.helpLabel (lInfo ⟨some 1, some 1000, true⟩) = b "--port,-p=<1-10>" := by
  decide +kernel

/-! ## The members of a group -/

theorem barsRest_eq (m : Nat) (rs : List HelpRow) (j : Nat) (hj : 1 ≤ j) (hm : j + rs.length = m)
    (h2 : 2 ≤ m) : barsRest rs = rs.mapIdx fun i r => prefixRuntime (barAt m (j + i)) r := by
  induction rs generalizing j with
  | nil => rfl
  | cons r rs ih =>
    cases rs with
    | nil =>
      simp only [List.length_cons, List.length_nil] at hm
      simp [barsRest, barAt, show ¬ m = 1 by omega, show ¬ j = 0 by omega, show j + 1 = m by omega,
        bottomBar]
    | cons s rs =>
      simp only [List.length_cons] at hm
      have ih := ih (j + 1) (by omega) (by simp only [List.length_cons]; omega)
      rw [barsRest, ih, List.mapIdx_cons (l := s :: rs)]
      congr 1
      · simp [barAt, show ¬ m = 1 by omega, show ¬ j = 0 by omega, show ¬ j + 1 = m by omega,
          middleBar]
      · congr 1
        funext i r
        rw [show j + 1 + i = j + (i + 1) by omega]

theorem barsRuntime_eq (rs : List HelpRow) :
    barsRuntime rs = rs.mapIdx fun i r => prefixRuntime (barAt rs.length i) r := by
  match rs with
  | [] => rfl
  | [.mk l d cs] => simp [barsRuntime, barAt, prefixRuntime]
  | r :: s :: rs =>
    rw [barsRuntime, barsRest_eq (rs.length + 2) (s :: rs) 1 (by omega)
      (by simp only [List.length_cons]; omega) (by omega)]
    rw [List.mapIdx_cons (l := s :: rs) (a := r)]
    simp only [List.length_cons]
    have e : (fun i r => prefixRuntime (barAt (rs.length + 2) (1 + i)) r) =
        fun i r => prefixRuntime (barAt (rs.length + 1 + 1) (i + 1)) r := by
      funext i r
      rw [Nat.add_comm 1 i]
    rw [e]
    congr 1

/-- C82, groups: below the label of a group there is one row for each member that is not disabled, in
declaration order, with the first, middle or last part of a bracket before its label; a single member
has no bracket. -/
theorem C82_members (info : HelpInfo) (flatten : Bool) (g : Node) (ht : HelpTree g)
    (hg : IsGroup g) (members : List Node)
    (hm : members = g.children.filter fun c => !SwitchedOff c) :
    runtimeHelp info flatten g = .mk (g.helpLabel info) g.helpDescription
      (members.mapIdx fun i c =>
        .mk (barAt members.length i ++ c.helpLabel info) c.helpDescription []) := by
  subst hm
  have hf : (fun c : Node => !SwitchedOff c) = Node.helpShown := rfl
  rw [runtimeHelp, hf]
  congr 1
  have hrun := ht.group g (self_mem_nodes g) hg
  have hd := defaultRows_group (info := info) (cs := g.children)
    (fun c hc => ⟨ht.child hc, hrun c hc⟩) true
  have : runtimeRows info flatten g = barsRuntime (defaultRows info true g.children) := by
    obtain ⟨k, u, h, v, p, cs⟩ := g
    rcases hg with hk | hk <;> simp only [Node.kind] at hk <;> subst hk <;> rfl
  rw [this, hd, barsRuntime_eq, List.length_map]
  apply List.ext_getElem
  · simp
  · intro i h1 h2
    simp [prefixRuntime]

example : IsGroup hGroup ∧ HelpTree hGroup ∧
    (hGroup.children.filter fun c => !SwitchedOff c).map (·.uid) = [5, 6] :=
  ⟨.inr rfl, helpTree_of_test (by decide +kernel), by decide +kernel⟩

/-- The description of a node is the text of its description policy; groups and the root have none. -/
theorem C82_description (n : Node) :
    (n.kind ∈ [.aliasGroup, .oneOf, .root] → n.helpDescription = []) ∧
    (n.kind ∉ [.aliasGroup, .oneOf, .root] → (∀ s, Policy.description s ∉ n.policies) →
      n.helpDescription = []) ∧
    ∀ s, n.kind ∉ [.aliasGroup, .oneOf, .root] → Policy.description s ∈ n.policies →
      (∀ t, Policy.description t ∈ n.policies → t = s) → n.helpDescription = s := by
  have hgen : n.kind ∉ [.aliasGroup, .oneOf, .root] →
      n.helpDescription = n.descriptionText.getD [] := by
    intro h
    unfold Node.helpDescription
    split <;> simp_all
  refine ⟨fun h => ?_, fun hk h => ?_, fun s hk h h2 => ?_⟩
  · simp only [List.mem_cons, List.not_mem_nil, or_false] at h
    rcases h with h | h | h <;> unfold Node.helpDescription <;> rw [h]
  · rw [hgen hk]
    have : n.descriptionText = none := by
      refine List.findSome?_eq_none_iff.2 fun p hp => ?_
      split
      · exact absurd hp (h _)
      · rfl
    rw [this]; rfl
  · rw [hgen hk]
    cases hd : n.descriptionText with
    | none =>
      have := List.findSome?_eq_none_iff.1 hd _ h
      simp at this
    | some t =>
      obtain ⟨p, hp, ht⟩ := List.exists_of_findSome?_eq_some hd
      cases p <;> simp at ht
      subst ht
      exact h2 _ hp

end ArgRouter.Props

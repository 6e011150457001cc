import Verif.Parse.Classes
import Verif.Props.Groups
import Verif.Props.Route
import Verif.Props.Safe

/-!
# What groups are called

C86: an error about a `one_of` or `alias_group` names the group and all of its alternatives.
-/

namespace ArgRouter

open Spec

namespace Spec

/-- `name` followed by the alternatives, with commas between those. -/
def namesOf (name : Bytes) : List Bytes → Bytes
  | [] => name
  | [c] => name ++ c
  | c :: cs => name ++ c ++ (cs.map fun d => b "," ++ d).flatten

/-- The display name among the policies given, or `default`. -/
def DisplayedAs (default : Bytes) (user : List Policy) (name : Bytes) : Prop :=
  (∃ pre post, user = pre ++ .displayName name :: post ∧ ∀ p ∈ pre, ∀ s, p ≠ .displayName s) ∨
  (name = default ∧ ∀ p ∈ user, ∀ s, p ≠ .displayName s)

end Spec

namespace Props

/-- The comma after the last alternative is dropped. -/
theorem groupName_eq (cfg : Config) (name : Bytes) (cs : List Node) (hcs : cs ≠ []) :
    groupName cfg name cs = namesOf name (cs.map fun c => c.tokenType.str cfg) := by
  have key : ∀ (f : Node → Bytes) (cs : List Node) (pre : Bytes) (c : Node),
      (pre ++ ((c :: cs).map fun c => f c ++ b ",").flatten).dropLast =
        pre ++ f c ++ ((cs.map f).map fun d => b "," ++ d).flatten := by
    intro f cs
    induction cs with
    | nil =>
      intro pre c
      show (pre ++ (f c ++ [44] ++ [])).dropLast = pre ++ f c ++ []
      rw [List.append_nil, ← List.append_assoc, List.dropLast_concat, List.append_nil]
    | cons d cs ih =>
      intro pre c
      have := ih (pre ++ (f c ++ b ",")) d
      simp only [List.map_cons, List.flatten_cons, List.append_assoc] at this ⊢
      exact this
  cases cs with
  | nil => exact absurd rfl hcs
  | cons c cs =>
    rw [groupName, key]
    cases cs with
    | nil => simp [namesOf]
    | cons d cs => rfl

theorem findSome_displayName {default name : Bytes} {user : List Policy}
    (h : DisplayedAs default user name) :
    (∃ q, user.findSome? (fun | Policy.displayName s => some s | _ => none) = some q ∧ q = name) ∨
    (user.findSome? (fun | Policy.displayName s => some s | _ => none) = none ∧ name = default) := by
  rcases h with ⟨pre, post, rfl, hpre⟩ | ⟨rfl, hn⟩
  · refine .inl ⟨name, ?_, rfl⟩
    rw [List.findSome?_append, List.findSome?_eq_none_iff.mpr]
    · rfl
    · intro p hp
      cases p <;> first | rfl | exact absurd rfl (hpre _ hp _)
  · refine .inr ⟨?_, rfl⟩
    rw [List.findSome?_eq_none_iff]
    intro p hp
    cases p <;> first | rfl | exact absurd rfl (hn _ hp _)

/-- The error name of a group with the policies `add_names` makes. -/
theorem group_tokenType (cfg : Config) (k : Kind) (uid hash : Nat) (vt : ValueType)
    (default name : Bytes) (user : List Policy) (cs : List Node) (hcs : cs ≠ [])
    (hname : DisplayedAs default user name) :
    (Node.mk k uid hash vt (groupPolicies cfg default user cs) cs).tokenType =
      ⟨.none, namesOf name (cs.map fun c => c.tokenType.str cfg)⟩ := by
  unfold groupPolicies
  rcases findSome_displayName hname with ⟨q, h, rfl⟩ | ⟨h, rfl⟩
  · split
    · rename_i s hs
      cases hs.symm.trans h
      rw [← groupName_eq cfg _ cs hcs]; rfl
    · rename_i hs
      cases hs.symm.trans h
  · split
    · rename_i s hs
      cases hs.symm.trans h
    · rw [← groupName_eq cfg _ cs hcs]; rfl

/-- C86: what errors call a `one_of` is its display name ("One of: " if it has none) followed by what
they call its alternatives, in order, separated by commas. -/
theorem C86_one_of (cfg : Config) (uid hash : Nat) (vt : ValueType) (name : Bytes)
    (user : List Policy) (cs : List Node) (hcs : cs ≠ [])
    (hname : DisplayedAs (b "One of: ") user name) :
    (mkOneOf cfg uid hash vt user cs).tokenType =
      ⟨.none, namesOf name (cs.map fun c => c.tokenType.str cfg)⟩ :=
  group_tokenType cfg .oneOf uid hash vt _ name user cs hcs hname

/-- C86: the same for an `alias_group` ("Alias Group: "). -/
theorem C86_alias_group (cfg : Config) (uid hash : Nat) (vt : ValueType) (name : Bytes)
    (user : List Policy) (cs : List Node) (hcs : cs ≠ [])
    (hname : DisplayedAs (b "Alias Group: ") user name) :
    (mkAliasGroup cfg uid hash vt user cs).tokenType =
      ⟨.none, namesOf name (cs.map fun c => c.tokenType.str cfg)⟩ :=
  group_tokenType cfg .aliasGroup uid hash vt _ name user cs hcs hname

/-- C86: an alternative with a long name is listed by that, behind the prefix, one with only a short
name by that. -/
theorem C86_alternative (cfg : Config) (c : Node) (name : Bytes) (he : c.errorName = none)
    (hd : c.displayName = none) :
    (c.longName = some name → c.tokenType.str cfg = cfg.longPrefix ++ name) ∧
    (c.longName = none → c.shortName = some name → c.tokenType.str cfg = cfg.shortPrefix ++ name) := by
  unfold Node.tokenType
  rw [he, hd]
  refine ⟨fun h => ?_, fun h h2 => ?_⟩
  · rw [h]; rfl
  · rw [h, h2]; rfl

/-- C86: if an alternative is used after another one, the error says so and names the group and all
alternatives. -/
theorem C86_rejected (cfg : Config) (parents : List Node) (label : Token) (rest : List Token)
    (processed : Option Target) (validator : Validator) (uid hash : Nat) (vt : ValueType)
    (user : List Policy) (name : Bytes) (pre post : List Node) (c : Node) (mn mx used : Nat) (s : St)
    (hname : DisplayedAs (b "One of: ") user name)
    (hpre : ∀ d ∈ pre, d.isGroup = false ∧ d.isNamed = true ∧ ¬ IsLabel cfg d label ∧
      ∃ mn mx, MatchPolicies d [.minMaxCount mn mx])
    (hc : c.isGroup = false) (hn : c.isNamed = true) (hp : MatchPolicies c [.minMaxCount mn mx])
    (hmx : mx ≤ sizeMax) (hlen : rest.length + 1 < 2 ^ 63) (hl : IsLabel cfg c label)
    (hused : s.lastTypeId uid = some used) (hother : used ≠ c.hash) :
    preParse cfg parents (label :: rest) processed
        (mkOneOf cfg uid hash vt user (pre ++ c :: post)) validator s =
      (.throw ⟨.one_of_selected_type_mismatch,
        [⟨.none, namesOf name ((pre ++ c :: post).map fun c => c.tokenType.str cfg)⟩]⟩, s) := by
  rw [← C86_one_of cfg uid hash vt name user (pre ++ c :: post) (by simp) hname]
  exact C14_rejected cfg parents label rest processed validator uid hash vt _ pre post c mn mx used s
    hpre hc hn hp hmx hlen hl hused hother

theorem mem_groupPolicies {cfg : Config} {default : Bytes} {user : List Policy} {cs : List Node} {p : Policy}
    (h : p ∈ user) : p ∈ groupPolicies cfg default user cs := by
  unfold groupPolicies
  split <;> simp [h]

/-- C86: if a required group is missing (and nothing is wrong before it, as in C21), the error says so and
names the group and all alternatives. -/
theorem C86_missing (cfg : Config) (uid hash : Nat) (vt : ValueType) (user : List Policy) (name : Bytes)
    (alternatives : List Node) (group mode : Node) (uses : List Leaf) (s : St) (i : Nat)
    (hgroup : (group = mkOneOf cfg uid hash vt user alternatives ∧ DisplayedAs (b "One of: ") user name) ∨
      (group = mkAliasGroup cfg uid hash vt user alternatives ∧
        DisplayedAs (b "Alias Group: ") user name))
    (halt : alternatives ≠ []) (hreq : .required ∈ user)
    (hc : mode.children[i]? = some group) (hn : group.hasNoResult = false)
    (hnot : NotGiven mode.children uses i)
    (huses : ∀ l ∈ uses, l.node.hasRouter = false ∧ l.node.kind ≠ .help ∧ ∃ v, leafValue l = .ok v)
    (honce : ∀ j, (usesOf mode.children uses j).length ≤ 1)
    (hbefore : ∀ (j : Nat) (d : Node), j < i → mode.children[j]? = some d →
      d.hasNoResult = true ∨ (¬ NotGiven mode.children uses j ∧ ∀ n ∈ d.nodes, n.isMultiStage = false)
        ∨ ∃ v, Fallback d v ∧ InBounds d v ∧ Approved d v) :
    parseMode mode uses s = (.throw ⟨.missing_required_argument,
      [⟨.none, namesOf name (alternatives.map fun c => c.tokenType.str cfg)⟩]⟩, s) := by
  have ht : group.tokenType = ⟨.none, namesOf name (alternatives.map fun c => c.tokenType.str cfg)⟩ ∧
      MustBeGiven group := by
    rcases hgroup with ⟨rfl, hname⟩ | ⟨rfl, hname⟩
    · exact ⟨C86_one_of cfg uid hash vt name user alternatives halt hname, .inl (mem_groupPolicies hreq)⟩
    · exact ⟨C86_alias_group cfg uid hash vt name user alternatives halt hname,
        .inl (mem_groupPolicies hreq)⟩
  rw [← ht.1]
  exact C21_error mode uses s i group hc hn ht.2 hnot huses honce hbefore

/-! ### An example -/

namespace GroupNameEx

def skip : Node := mkFlag .default 1 1 [.longName (b "skip-line")]
def suffix : Node := mkArg 2 2 ⟨false, .one (.str []), fun s => .ok (.str s)⟩ [.longName (b "line-suffix")]
def handling : Node := mkOneOf .default 3 3 boolType [.required] [skip, suffix]

example : handling.tokenType = ⟨.none, b "One of: --skip-line,--line-suffix"⟩ := by
  refine (C86_one_of .default 3 3 boolType (b "One of: ") [.required] [skip, suffix] (by decide) ?_)
  exact .inr ⟨rfl, by simp⟩

/-- With nothing but the name given. -/
def prog : Node := mkRoot 9 9 [mkMode 8 8 [.router] [handling]]

/-- The message the user sees when both are used, and when none is. -/
example : (rootSeen .default defaultTranslations [] prog
    [b "--skip-line", b "--line-suffix", b "x"] .fresh).1 = .parseException
      (b "Only one argument from a \"One Of\" can be used at once: One of: --skip-line,--line-suffix") := by
  decide +kernel
example : (rootSeen .default defaultTranslations [] (mkRoot 9 9 [mkMode 8 8 [.router]
      [handling, mkFlag .default 4 4 [.longName (b "all")]]]) [b "--all"] .fresh).1 = .parseException
      (b "Missing required argument: One of: --skip-line,--line-suffix") := by
  decide +kernel

/-- The hypotheses of `C86_missing` are met. -/
example (s : St) : parseMode (mkMode 8 8 [.router] [handling]) [] s =
    (.throw ⟨.missing_required_argument, [⟨.none, b "One of: --skip-line,--line-suffix"⟩]⟩, s) := by
  refine C86_missing .default 3 3 boolType [.required] (b "One of: ") [skip, suffix] handling
    (mkMode 8 8 [.router] [handling]) [] s 0 (.inl ⟨rfl, .inr ⟨rfl, by simp⟩⟩) (by simp) (by simp) rfl
    (by decide) ?_ (by simp) ?_ (by omega)
  · exact fun l hl => absurd hl (by simp)
  · intro j
    simp [usesOf]

/-- The hypotheses of `C86_rejected` are met. -/
example (s : St) (h : s.lastTypeId 3 = some 1) (rest : List Token) (hlen : rest.length + 1 < 2 ^ 63)
    (validator : Validator) :
    preParse .default [] (⟨.none, b "--line-suffix"⟩ :: rest) none handling validator s =
      (.throw ⟨.one_of_selected_type_mismatch,
        [⟨.none, b "One of: --skip-line,--line-suffix"⟩]⟩, s) := by
  refine C86_rejected .default [] ⟨.none, b "--line-suffix"⟩ rest none validator 3 3 boolType
    [.required] (b "One of: ") [skip] [] suffix 1 1 1 s (.inr ⟨rfl, by simp⟩) ?_ (by decide) (by decide)
    ?_ (by decide) hlen (.inl ⟨b "line-suffix", rfl, rfl⟩) h (by decide)
  · intro d hd
    rw [List.mem_singleton] at hd
    subst hd
    refine ⟨by decide, by decide, ?_, 0, 0, List.Perm.refl _⟩
    rintro (⟨x, h1, h2⟩ | ⟨x, h1, h2⟩ | ⟨h1, _⟩)
    · cases h1; exact absurd h2 (by decide)
    · cases h1
    · cases h1
  · exact List.Perm.refl _

end GroupNameEx

end Props

end ArgRouter

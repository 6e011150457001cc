import Verif.Lemmas.Valid
import Verif.Spec.Cli
import Verif.Parse.Mode

/-!
# C67–C70: what the default validator guarantees
-/

namespace ArgRouter.Spec

/-- The position, seen from the mode (or root) `m`, belongs to the name space of `m`: neither the
node there nor one on the way to it is another mode. -/
def OwnPosition (m : Node) (p : List Nat) : Prop :=
  ∀ k n, 0 < k → k ≤ p.length → nodeAt m (p.take k) = some n → n.kind ≠ .mode

/-- The policies that name a node on the command line. -/
inductive IsName : Policy → Prop
  | long (s : Bytes) : IsName (.longName s)
  | short (s : Bytes) : IsName (.shortName s)
  | none (s : Bytes) : IsName (.noneName s)

/-- No node of the tree has two children of the same type. -/
def DistinctSiblings (m : Node) : Prop :=
  ∀ (p : List Nat) (n : Node) (i j : Nat) (c d : Node), nodeAt m p = some n → n.children[i]? = some c → n.children[j]? = some d →
    c.hash = d.hash → i = j

/-- No unprefixed name in the tree is spelled like a prefixed name in it. -/
def NoPrefixedNoneName (cfg : Config) (m : Node) : Prop :=
  ∀ p q a c s, nodeAt m p = some a → nodeAt m q = some c → a.noneName = some s →
    (∀ l, c.longName = some l → s ≠ cfg.longPrefix ++ l) ∧
    (∀ x, c.shortName = some x → s ≠ cfg.shortPrefix ++ x)

/-- The validator accepts the tree with the default rules. -/
def Accepted (root : Node) : Prop := validate defaultRules root = true

end ArgRouter.Spec

namespace ArgRouter.Props

open Spec

/-! ## C67 -/

theorem default_name_rule {q : Policy} {ps : List Node} (hq : IsName q)
    (h : checkItem defaultRules (.policy q, ps) = true) :
    Condition.holds (.policy q) ps (.uniqueToMode [.mode]) = true := by
  cases hq <;>
    simp [checkItem, defaultRules, RuleKey.matches, Policy.kind] at h <;>
    simp [h]

theorem _root_.ArgRouter.Spec.IsName.nameType {q : Policy} (h : IsName q) : ∃ nt, q.nameType = some nt := by
  cases h <;> exact ⟨_, rfl⟩

/-- One direction of the uniqueness check: the policy at `p` is checked against that at `q`. -/
theorem unique_check {root m a c : Node} {pm p q : List Nat} {x : Policy}
    (hacc : Accepted root) (hm : nodeAt root pm = some m) (htop : m.kind = .mode ∨ pm = [])
    (ha : nodeAt m p = some a) (hc : nodeAt m q = some c)
    (hp : OwnPosition m p) (hq : OwnPosition m q)
    (hx : IsName x) (hxa : x ∈ a.policies) (hxc : x ∈ c.policies)
    (hdeep : pm ≠ [] ∨ p ≠ []) :
    (a :: lineage m p).map Node.hash = (c :: lineage m q).map Node.hash := by
  have hroot : nodeAt root (pm ++ p) = some a := by rw [nodeAt_append, hm]; exact ha
  have hchk := default_name_rule hx ((validate_iff.1 hacc).2 (pm ++ p) a x hroot hxa)
  have hpath : pathToMode [.mode] (a :: lineage root (pm ++ p)) = a :: lineage m p := by
    refine pathToMode_eq hm ha ?_ ?_
    · rcases htop with h | h
      · left; rw [h]; rfl
      · right; exact h
    · intro y hy
      obtain ⟨k, h0, hk, e⟩ := mem_path_dropLast p m a y ha hy
      have := hp k y h0 hk e
      simpa using this
  have hlen : 1 < (a :: lineage root (pm ++ p)).length := by
    rw [List.length_cons, lineage_length _ _ _ hroot, List.length_append]
    rcases hdeep with h | h
    · have := List.length_pos_iff.2 h; omega
    · have := List.length_pos_iff.2 h; omega
  obtain ⟨nt, hnt⟩ := hx.nameType
  simp only [Condition.holds, hlen, if_true, hpath, path_getLast p m a ha,
    List.all_eq_true] at hchk
  have hreach : Reach (skipOtherModes [.mode] m) [] m q := by
    clear hchk
    have : ∀ (q : List Nat) (ps : List Node) (n : Node),
        (∀ k z, k ≤ q.length → nodeAt n (q.take k) = some z →
          z.hash = m.hash ∨ z.kind ≠ .mode) → Reach (skipOtherModes [.mode] m) ps n q := by
      intro q
      induction q with
      | nil =>
        intro ps n h
        have := h 0 n (Nat.le_refl _) rfl
        simp only [Reach, skipOtherModes]
        split
        · rfl
        · rcases this with h | h
          · contradiction
          · simpa using h
      | cons i q ih =>
        intro ps n h
        refine ⟨?_, ?_⟩
        · have := h 0 n (Nat.zero_le _) rfl
          simp only [skipOtherModes]
          split
          · rfl
          · rcases this with h | h
            · contradiction
            · simpa using h
        · intro d hd
          refine ih _ d ?_
          intro k z hk hz
          exact h (k + 1) z (by simpa using hk) (by simpa [nodeAt, hd] using hz)
    refine this q [] m ?_
    intro k z hk hz
    cases k with
    | zero =>
      simp only [List.take_zero, nodeAt, Option.some.injEq] at hz
      exact Or.inl (by rw [hz])
    | succ k => exact Or.inr (hq (k + 1) z (by omega) hk hz)
  have := hchk _ (mem_typeWalk_policy hc hreach hxc rfl)
  simp only [noClash, Item.sameType, hnt, Bool.or_eq_true, beq_iff_eq] at this
  rcases this with h | h
  · exact h
  · simp at h

/-- In an accepted tree, if two nodes of a mode's name space (or of the root's) carry the same name,
then they have the same chain of types up to the mode. (Missing for the full property: that they are
then the same node.) -/
theorem C67_same_types_partial {root m a c : Node} {pm p q : List Nat} {x : Policy}
    (hacc : Accepted root) (hm : nodeAt root pm = some m) (htop : m.kind = .mode ∨ pm = [])
    (ha : nodeAt m p = some a) (hc : nodeAt m q = some c)
    (hp : OwnPosition m p) (hq : OwnPosition m q)
    (hx : IsName x) (hxa : x ∈ a.policies) (hxc : x ∈ c.policies) :
    (a :: lineage m p).map Node.hash = (c :: lineage m q).map Node.hash := by
  by_cases hdeep : pm ≠ [] ∨ p ≠ []
  · exact unique_check hacc hm htop ha hc hp hq hx hxa hxc hdeep
  · have h1 : pm = [] := Classical.byContradiction fun h => hdeep (Or.inl h)
    have h2 : p = [] := Classical.byContradiction fun h => hdeep (Or.inr h)
    by_cases h3 : q = []
    · subst h2 h3
      rw [ha, Option.some.injEq] at hc; rw [hc]
    · exact (unique_check hacc hm htop hc ha hq hp hx hxc hxa (Or.inr h3)).symm

theorem path_injective : ∀ (p q : List Nat) (m a c : Node), DistinctSiblings m →
    nodeAt m p = some a → nodeAt m q = some c →
    (a :: lineage m p).map Node.hash = (c :: lineage m q).map Node.hash → p = q
  | [], [], _, _, _, _, _, _, _ => rfl
  | [], j :: q, m, a, c, _, ha, hc, h => by
    have := congrArg List.length h
    simp only [List.length_map, List.length_cons, lineage_length _ _ _ ha,
      lineage_length _ _ _ hc] at this
    simp at this
  | i :: p, [], m, a, c, _, ha, hc, h => by
    have := congrArg List.length h
    simp only [List.length_map, List.length_cons, lineage_length _ _ _ ha,
      lineage_length _ _ _ hc] at this
    simp at this
  | i :: p, j :: q, m, a, c, hd, ha, hc, h => by
    simp only [nodeAt, lineage] at ha hc h
    cases hi : m.children[i]? with
    | none => simp [hi] at ha
    | some ci =>
      cases hj : m.children[j]? with
      | none => simp [hj] at hc
      | some cj =>
        rw [hi] at ha
        rw [hj] at hc
        simp only [hi, hj] at h
        rw [← List.cons_append, ← List.cons_append, List.map_append, List.map_append] at h
        have h' := (List.append_inj' h rfl).1
        have hci := path_getLast p ci a ha
        have hcj := path_getLast q cj c hc
        have e : ci.hash = cj.hash := by
          have := congrArg List.getLast? h'
          rw [List.getLast?_map, List.getLast?_map, hci, hcj] at this
          simpa using this
        have hij := hd [] m i j ci cj rfl hi hj e
        subst hij
        rw [hi, Option.some.injEq] at hj; subst hj
        have hsub : DistinctSiblings ci := by
          intro p n i' j' x y hp hx hy hxy
          exact hd (i :: p) n i' j' x y (by simp [nodeAt, hi, hp]) hx hy hxy
        rw [path_injective p q ci a c hsub ha hc h']

theorem mem_of_longName {n : Node} {s : Bytes} (h : n.longName = some s) :
    Policy.longName s ∈ n.policies := by
  unfold Node.longName at h
  obtain ⟨x, hx, e⟩ := List.exists_of_findSome?_eq_some h
  cases x <;> simp at e
  subst e; exact hx

theorem mem_of_shortName {n : Node} {s : Bytes} (h : n.shortName = some s) :
    Policy.shortName s ∈ n.policies := by
  unfold Node.shortName at h
  obtain ⟨x, hx, e⟩ := List.exists_of_findSome?_eq_some h
  cases x <;> simp at e
  subst e; exact hx

theorem mem_of_noneName {n : Node} {s : Bytes} (h : n.noneName = some s) :
    Policy.noneName s ∈ n.policies := by
  unfold Node.noneName at h
  obtain ⟨x, hx, e⟩ := List.exists_of_findSome?_eq_some h
  cases x <;> simp at e
  subst e; exact hx

/-- In an accepted tree, no command line string is the label of two different nodes of a mode's name
space, provided no node in the mode has two children of one type and no unprefixed name is spelled
like a prefixed one. (Both conditions are needed, see `C67_false`, and names of child modes are not
covered at all.) -/
theorem C67_unambiguous_partial {cfg : Config} {root m a c : Node} {pm p q : List Nat} {t : Token}
    (hacc : Accepted root) (hm : nodeAt root pm = some m) (htop : m.kind = .mode ∨ pm = [])
    (hd : DistinctSiblings m) (hnp : NoPrefixedNoneName cfg m)
    (ha : nodeAt m p = some a) (hc : nodeAt m q = some c)
    (hp : OwnPosition m p) (hq : OwnPosition m q)
    (hta : IsLabel cfg a t) (htc : IsLabel cfg c t) : p = q := by
  have key : ∀ x, IsName x → x ∈ a.policies → x ∈ c.policies → p = q := fun x hx h1 h2 =>
    path_injective p q m a c hd ha hc
      (C67_same_types_partial hacc hm htop ha hc hp hq hx h1 h2)
  unfold IsLabel at hta htc
  cases hpre : t.pre with
  | long =>
    rw [hpre] at hta htc
    exact key _ (.long t.name) (mem_of_longName hta) (mem_of_longName htc)
  | short =>
    rw [hpre] at hta htc
    exact key _ (.short t.name) (mem_of_shortName hta) (mem_of_shortName htc)
  | none =>
    rw [hpre] at hta htc
    rcases hta with ⟨l, h1, e1⟩ | ⟨x, h1, e1, n1⟩ | ⟨h1, _⟩ <;>
      rcases htc with ⟨l', h2, e2⟩ | ⟨x', h2, e2, n2⟩ | ⟨h2, _⟩
    · have : l = l' := List.append_cancel_left (e1.symm.trans e2)
      subst this
      exact key _ (.long l) (mem_of_longName h1) (mem_of_longName h2)
    · exact absurd ⟨l, e1.symm⟩ n2
    · exact absurd e1 ((hnp q p c a _ hc ha h2).1 l h1)
    · exact absurd ⟨l', e2.symm⟩ n1
    · have : x = x' := List.append_cancel_left (e1.symm.trans e2)
      subst this
      exact key _ (.short x) (mem_of_shortName h1) (mem_of_shortName h2)
    · exact absurd e1 ((hnp q p c a _ hc ha h2).2 x h1)
    · exact absurd e2 ((hnp p q a c _ ha hc h1).1 l' h2)
    · exact absurd e2 ((hnp p q a c _ ha hc h1).2 x' h2)
    · exact key _ (.none t.name) (mem_of_noneName h1) (mem_of_noneName h2)

namespace ValidEx

def vt : ValueType := ⟨false, .one (.bool false), fun _ => .ok (.bool true)⟩
def flag (h : Nat) (ps : List Policy) : Node :=
  .mk .flag h h vt (ps ++ [.minMaxCount 0 0, .defaultValue (.one (.bool false))]) []
def arg (h : Nat) (ps : List Policy) : Node := .mk .arg h h vt (ps ++ [.minMaxCount 1 1]) []
def fwd (h : Nat) (s : Bytes) : Node :=
  .mk .forwarding h h vt [.noneName s, .minMaxCount 0 sizeMax] []
def pos (h mn mx : Nat) (ps : List Policy) : Node :=
  .mk .positional h h vt ([.displayName [112], .minMaxCount mn mx] ++ ps) []
def mode (h : Nat) (ps : List Policy) (cs : List Node) : Node :=
  .mk .mode h h vt ([.router, .noResult] ++ ps) cs
def root (cs : List Node) : Node := .mk .root 0 0 vt [.other 0, .other 1] cs

/-- The same flag written twice. -/
def twice : Node := root [mode 1 [] [flag 2 [.longName (b "ab")], flag 2 [.longName (b "ab")]]]
/-- Two modes of the same name. -/
def sameModes : Node :=
  root [mode 1 [.noneName (b "run")] [flag 2 [.longName (b "ab")]],
        mode 3 [.noneName (b "run")] [flag 4 [.longName (b "cd")]]]
/-- A forwarding argument whose name looks like that of a flag. -/
def lookalike : Node := root [mode 1 [] [flag 2 [.longName (b "ab")], fwd 3 (b "--ab")]]
/-- A well-behaved tree. -/
def goodMode : Node :=
  mode 1 [] [flag 2 [.longName (b "ab")],
    arg 3 [.longName (b "cd"), .shortName (b "c"), .required], pos 4 1 sizeMax [.required]]
def good : Node := root [goodMode]

end ValidEx

open ValidEx

/-- The default validator accepts trees in which one string is the label of two different nodes of
the same mode: the same node written twice, two sibling modes with one name, and an unprefixed name
that is spelled like a prefixed one. -/
theorem C67_false :
    (Accepted twice ∧ ∃ m a c, nodeAt twice [0] = some m ∧ m.kind = .mode ∧
      nodeAt m [0] = some a ∧ nodeAt m [1] = some c ∧
      IsLabel .default a ⟨.none, b "--ab"⟩ ∧ IsLabel .default c ⟨.none, b "--ab"⟩) ∧
    (Accepted sameModes ∧ ∃ a c, nodeAt sameModes [0] = some a ∧ nodeAt sameModes [1] = some c ∧
      a.kind = .mode ∧ c.kind = .mode ∧
      IsLabel .default a ⟨.none, b "run"⟩ ∧ IsLabel .default c ⟨.none, b "run"⟩) ∧
    (Accepted lookalike ∧ ∃ m a c, nodeAt lookalike [0] = some m ∧ m.kind = .mode ∧
      nodeAt m [0] = some a ∧ nodeAt m [1] = some c ∧
      IsLabel .default a ⟨.none, b "--ab"⟩ ∧ IsLabel .default c ⟨.none, b "--ab"⟩) := by
  refine ⟨⟨by unfold Accepted; decide +kernel, _, _, _, rfl, rfl, rfl, rfl, ?_, ?_⟩,
    ⟨by unfold Accepted; decide +kernel, _, _, rfl, rfl, rfl, rfl, ?_, ?_⟩,
    ⟨by unfold Accepted; decide +kernel, _, _, _, rfl, rfl, rfl, rfl, ?_, ?_⟩⟩
  · exact Or.inl ⟨b "ab", rfl, rfl⟩
  · exact Or.inl ⟨b "ab", rfl, rfl⟩
  · exact Or.inr (Or.inr ⟨rfl, by decide +kernel, by decide +kernel⟩)
  · exact Or.inr (Or.inr ⟨rfl, by decide +kernel, by decide +kernel⟩)
  · exact Or.inl ⟨b "ab", rfl, rfl⟩
  · exact Or.inr (Or.inr ⟨rfl, by decide +kernel, by decide +kernel⟩)

/-- The hypotheses of `C67_unambiguous_partial` are met by an accepted tree with three arguments. -/
example : Accepted good := by unfold Accepted; decide +kernel
example : OwnPosition goodMode [1] := by
  intro k n h0 hk hn
  have : k = 1 := by simp at hk; omega
  subst this
  cases hn; decide
theorem ValidEx.goodMode_nodes {p : List Nat} {n : Node} (h : nodeAt goodMode p = some n) :
    n = goodMode ∨ n ∈ goodMode.children ∧ n.children = [] := by
  cases p with
  | nil => simp only [nodeAt, Option.some.injEq] at h; exact Or.inl h.symm
  | cons i p =>
    right
    simp only [nodeAt] at h
    cases hc : goodMode.children[i]? with
    | none => simp [hc] at h
    | some c =>
      rw [hc] at h
      have hm := List.mem_of_getElem? hc
      have hl : c.children = [] := by
        simp only [goodMode, mode, Node.children, List.mem_cons, List.not_mem_nil, or_false] at hm
        rcases hm with rfl | rfl | rfl <;> rfl
      cases p with
      | nil =>
        simp only [nodeAt, Option.some.injEq] at h
        subst h; exact ⟨hm, hl⟩
      | cons j p => simp [nodeAt, hl] at h
example : DistinctSiblings goodMode := by
  intro p n i j c d hn hc hd h
  rcases ValidEx.goodMode_nodes hn with rfl | ⟨_, hl⟩
  · have hi := (List.getElem?_eq_some_iff.1 hc).1
    have hj := (List.getElem?_eq_some_iff.1 hd).1
    have hi' : i = 0 ∨ i = 1 ∨ i = 2 := by
      simp only [goodMode, mode, Node.children, List.length_cons, List.length_nil] at hi; omega
    have hj' : j = 0 ∨ j = 1 ∨ j = 2 := by
      simp only [goodMode, mode, Node.children, List.length_cons, List.length_nil] at hj; omega
    rcases hi' with rfl | rfl | rfl <;> rcases hj' with rfl | rfl | rfl <;>
      cases hc <;> cases hd <;> first | rfl | exact absurd h (by decide)
  · simp [hl] at hc
example : NoPrefixedNoneName .default goodMode := by
  intro p q a c s ha _ hs
  rcases ValidEx.goodMode_nodes ha with rfl | ⟨hm, _⟩
  · cases hs
  · simp only [goodMode, mode, Node.children, List.mem_cons, List.not_mem_nil, or_false] at hm
    rcases hm with rfl | rfl | rfl <;> cases hs

/-! ## C68 -/

theorem default_mode_rule {n : Node} {ps : List Node} (hk : n.kind = .mode)
    (h : checkItem defaultRules (.node n, ps) = true) :
    (∀ k ∈ [PKind.multiStage, .required, .runtimeEnableRequired, .alias, .dependent],
      n.has k = false) ∧
    nodesAtEndCheck [.positional] n.children = true ∧ fixedCountCheck n.children = true ∧
    ∃ q, ps.head? = some q ∧ (q.kind = .root ∨ q.kind = .mode) := by
  simp [checkItem, defaultRules, RuleKey.matches, hk, Condition.holds] at h
  obtain ⟨h1, h2, h3, h4⟩ := h
  refine ⟨by simpa using h1, h2, h3, ?_⟩
  cases ps with
  | nil => simp at h4
  | cons q ps => exact ⟨q, rfl, by simpa using h4⟩

theorem default_root_rule {n : Node} {ps : List Node} (hk : n.kind = .root)
    (h : checkItem defaultRules (.node n, ps) = true) :
    Condition.holds (.node n) ps (.singleAnonymousMode [.mode]) = true ∧
    Condition.holds (.node n) ps (.anonymousAtEnd [.mode]) = true ∧
    (n.children ≠ [] → ¬ (∀ c ∈ n.children, c.has .required = true) ∧
      ¬ (∀ c ∈ n.children, c.has .alias = true)) ∧
    n.has .validator = true ∧
    (∀ k ∈ [PKind.multiStage, .noResult, .runtimeEnable, .runtimeEnableRequired],
      n.has k = false) := by
  simp [checkItem, defaultRules, RuleKey.matches, hk] at h
  obtain ⟨h1, h2, h3, h4, h5, h6⟩ := h
  refine ⟨h5, h6, ?_, by simpa [Condition.holds] using h1, by simpa [Condition.holds] using h2⟩
  intro hc
  have hl := List.length_pos_iff.2 hc
  simp only [Condition.holds, hl, if_true, Bool.not_eq_true', ← Bool.not_eq_true,
    List.all_eq_true] at h3 h4
  exact ⟨h3, h4⟩

theorem nodesAtEnd_spec {kinds : List Kind} {cs : List Node}
    (h : nodesAtEndCheck kinds cs = true) {i j : Nat} {c d : Node} (hc : cs[i]? = some c)
    (hd : cs[j]? = some d) (hck : c.kind ∈ kinds) (hdk : d.kind ∉ kinds) : j < i := by
  refine Nat.lt_of_not_le fun hij => ?_
  have hci : (cs.map fun c => kinds.contains c.kind)[i]? = some true := by
    simp [List.getElem?_map, hc, hck]
  have hdj : (cs.map fun c => kinds.contains c.kind)[j]? = some false := by
    simp [List.getElem?_map, hd, hdk]
  unfold nodesAtEndCheck at h
  dsimp only at h
  generalize (cs.map fun c => kinds.contains c.kind) = fl at h hci hdj
  have hi := (List.getElem?_eq_some_iff.1 hci)
  have hle : fl.findIdx id ≤ i := by
    refine Nat.le_of_not_lt fun hlt => ?_
    have := List.not_of_lt_findIdx hlt
    rw [hi.2] at this
    cases this
  have hne : fl.findIdx id ≠ fl.length := by have := hi.1; omega
  rw [if_pos hne, List.all_eq_true] at h
  have : false ∈ fl.drop (fl.findIdx id) := by
    refine List.mem_of_getElem? (i := j - fl.findIdx id) ?_
    rw [List.getElem?_drop, Nat.add_sub_cancel' (by omega)]
    exact hdj
  exact absurd (h _ this) (by simp)

/-- In an accepted tree, every positional argument of a mode comes after every child of the mode that
is not a positional argument. -/
theorem C68_positional {root m c d : Node} {pm : List Nat} {i j : Nat} (hacc : Accepted root)
    (hm : nodeAt root pm = some m) (hk : m.kind = .mode)
    (hc : m.children[i]? = some c) (hck : c.kind = .positional)
    (hd : m.children[j]? = some d) (hdk : d.kind ≠ .positional) : j < i :=
  nodesAtEnd_spec (default_mode_rule hk ((validate_iff.1 hacc).1 pm m hm)).2.1 hc hd
    (by simp [hck]) (by simpa using hdk)

/-- In an accepted tree, root has at most one anonymous mode, and everything after it is a mode.
(Missing for the full property: that nothing comes after it.) -/
theorem C68_anonymous_partial {root c d : Node} {i j : Nat} (hacc : Accepted root)
    (hk : root.kind = .root) (hc : root.children[i]? = some c) (hck : c.kind = .mode)
    (hca : c.noneName = none) (hd : root.children[j]? = some d) :
    (d.kind = .mode → d.noneName = none → i = j) ∧ (i < j → d.kind = .mode) := by
  obtain ⟨h1, h2, -⟩ := default_root_rule hk ((validate_iff.1 hacc).1 [] root rfl)
  have hcanon : Node.isAnonMode [.mode] c = true := by
    simp [Node.isAnonMode, hck, Node.isAnonymous, hca]
  constructor
  · intro hdk hda
    have hdanon : Node.isAnonMode [.mode] d = true := by
      simp [Node.isAnonMode, hdk, Node.isAnonymous, hda]
    simp only [Condition.holds, decide_eq_true_eq] at h1
    rcases Nat.lt_trichotomy i j with h | h | h
    · have := two_le_countP _ _ _ _ _ _ hc hd hcanon hdanon h; omega
    · exact h
    · have := two_le_countP _ _ _ _ _ _ hd hc hdanon hcanon h; omega
  · intro hij
    have hany : root.children.any (Node.isAnonMode [.mode]) = true :=
      List.any_eq_true.2 ⟨c, List.mem_of_getElem? hc, hcanon⟩
    simp only [Condition.holds, hany, if_true] at h2
    refine Classical.byContradiction fun hdk => ?_
    have := nodesAtEnd_spec h2 hc hd (by simp [hck]) (by simpa using hdk)
    omega

/-- An anonymous mode in front of a named one. -/
def ValidEx.anonFirst : Node :=
  root [mode 1 [] [flag 2 [.longName (b "ab")]],
    mode 3 [.noneName (b "run")] [flag 4 [.longName (b "cd")]]]

/-- An anonymous mode need not be last in an accepted tree, and in front of a named mode it keeps the
user from ever reaching that: the command line `run` is an unknown argument. -/
theorem C68_false :
    Accepted anonFirst ∧
    (∃ c d, anonFirst.children[0]? = some c ∧ anonFirst.children[1]? = some d ∧
      c.kind = .mode ∧ c.noneName = none ∧ d.kind = .mode ∧ d.noneName = some (b "run")) ∧
    (parseArgs .default anonFirst [b "run"] St.fresh) =
      (.throw ⟨.unknown_argument_with_suggestion, [⟨.none, b "run"⟩, ⟨.long, b "ab"⟩]⟩,
        St.fresh) := by
  refine ⟨by unfold Accepted; decide +kernel, ⟨_, _, rfl, rfl, rfl, rfl, rfl, rfl⟩, ?_⟩
  decide +kernel

/-- The hypotheses of `C68_positional` are met by the third and first child of `goodMode`. -/
example : nodeAt good [0] = some goodMode ∧
    (goodMode.children[2]?.map Node.kind) = some .positional ∧
    (goodMode.children[0]?.map Node.kind) = some .flag := ⟨rfl, rfl, rfl⟩
/-- A positional argument in front of a flag is rejected. -/
example : ¬ Accepted (root [mode 1 [] [pos 4 1 1 [], flag 2 [.longName (b "ab")]]]) := by
  unfold Accepted; decide +kernel
/-- A root with a named and a following anonymous mode is accepted, one with two anonymous modes is
not. -/
example : Accepted (root [mode 3 [.noneName (b "run")] [flag 4 [.longName (b "cd")]],
      mode 1 [] [flag 2 [.longName (b "ab")]]]) ∧
    ¬ Accepted (root [mode 3 [] [flag 4 [.longName (b "cd")]],
      mode 1 [] [flag 2 [.longName (b "ab")]]]) := by
  unfold Accepted; decide +kernel

/-! ## C69 -/

/-- In an accepted tree, a child of a mode that takes a variable number of values, neither as a
multi-stage value nor delimited by an end marker, is the last child of the mode. -/
theorem C69_last {root m c : Node} {pm : List Nat} {i mn mx : Nat} (hacc : Accepted root)
    (hm : nodeAt root pm = some m) (hk : m.kind = .mode) (hc : m.children[i]? = some c)
    (hcount : c.minMaxCount = some (mn, mx)) (hvar : mn ≠ mx)
    (hms : c.isMultiStage = false) (hem : c.hasTokenEndMarker = false) :
    i + 1 = m.children.length := by
  have h := (default_mode_rule hk ((validate_iff.1 hacc).1 pm m hm)).2.2.1
  have hl : c.isListLike = true := by simp [Node.isListLike, hcount, hvar, hms, hem]
  unfold fixedCountCheck at h
  simp only [Bool.and_eq_true, decide_eq_true_eq] at h
  obtain ⟨h1, h2⟩ := h
  have hpos := List.countP_pos_iff.2 ⟨c, List.mem_of_getElem? hc, hl⟩
  rw [if_pos (by omega), beq_iff_eq] at h2
  have hi := List.getElem?_eq_some_iff.1 hc
  have hle : m.children.findIdx Node.isListLike ≤ i := by
    refine Nat.le_of_not_lt fun hlt => ?_
    have := List.not_of_lt_findIdx hlt
    rw [hi.2, hl] at this
    cases this
  have := hi.1
  omega

/-- So a mode has at most one such child. -/
theorem C69_single {root m c d : Node} {pm : List Nat} {i j : Nat} (hacc : Accepted root)
    (hm : nodeAt root pm = some m) (hk : m.kind = .mode)
    (hc : m.children[i]? = some c) (hd : m.children[j]? = some d)
    (hcv : ∃ mn mx, c.minMaxCount = some (mn, mx) ∧ mn ≠ mx)
    (hdv : ∃ mn mx, d.minMaxCount = some (mn, mx) ∧ mn ≠ mx)
    (hcs : c.isMultiStage = false ∧ c.hasTokenEndMarker = false)
    (hds : d.isMultiStage = false ∧ d.hasTokenEndMarker = false) : i = j := by
  obtain ⟨_, _, h1, h2⟩ := hcv
  obtain ⟨_, _, h3, h4⟩ := hdv
  have a1 := C69_last hacc hm hk hc h1 h2 hcs.1 hcs.2
  have a2 := C69_last hacc hm hk hd h3 h4 hds.1 hds.2
  omega

/-- The hypotheses are met by the last child of `goodMode`. -/
example : ∃ c, goodMode.children[2]? = some c ∧ c.minMaxCount = some (1, sizeMax) ∧
    c.isMultiStage = false ∧ c.hasTokenEndMarker = false := ⟨_, rfl, rfl, rfl, rfl⟩
/-- A variable-length argument in front of another one is rejected, unless it has an end marker. -/
example :
    ¬ Accepted (root [mode 1 [] [pos 4 1 5 [], pos 5 2 2 []]]) ∧
    Accepted (root [mode 1 [] [pos 4 1 5 [.tokenEndMarker (b ";")], pos 5 2 2 []]]) := by
  unfold Accepted; decide +kernel

/-! ## C70 -/

/-- With any rules: if the rule of a node says that its children must not have a policy, a tree where
*all* its children have that policy (and there are some) is rejected. (Missing for the full property:
rejection if only some of them have it.) -/
theorem C70_all_children_partial {rules : List Rule} {root n : Node} {p : List Nat} {r : Rule}
    {k : PKind} (hn : nodeAt root p = some n)
    (hr : rules.find? (fun r => r.key.matches (.node n)) = some r)
    (hk : .childMustNotHave k ∈ r.conditions) (hne : n.children ≠ [])
    (hall : ∀ c ∈ n.children, ∃ q ∈ c.policies, q.kind = k) : validate rules root = false := by
  rw [← Bool.not_eq_true]
  intro hacc
  have h := (validate_iff.1 hacc).1 p n hn
  simp only [checkItem, hr, List.all_eq_true] at h
  have h' := h _ hk
  have hl := List.length_pos_iff.2 hne
  simp only [Condition.holds, hl, if_true, Bool.not_eq_true', ← Bool.not_eq_true,
    List.all_eq_true] at h'
  refine h' fun c hc => ?_
  obtain ⟨q, hq, e⟩ := hall c hc
  exact List.any_eq_true.2 ⟨q, hq, by simp [e]⟩

/-- With any rules: if the rule of a node says that its children must have a policy, a tree in which
one of them does not have it is rejected. -/
theorem C70_must_have {rules : List Rule} {root n c : Node} {p : List Nat} {r : Rule}
    {k : PKind} (hn : nodeAt root p = some n)
    (hr : rules.find? (fun r => r.key.matches (.node n)) = some r)
    (hk : .childMustHave k ∈ r.conditions) (hc : c ∈ n.children)
    (hnot : ∀ q ∈ c.policies, q.kind ≠ k) : validate rules root = false := by
  rw [← Bool.not_eq_true]
  intro hacc
  have h := (validate_iff.1 hacc).1 p n hn
  simp only [checkItem, hr, List.all_eq_true] at h
  have h' := h _ hk
  simp only [Condition.holds, List.all_eq_true] at h'
  obtain ⟨q, hq, e⟩ := List.any_eq_true.1 (h' c hc)
  exact hnot q hq (by simpa using e)

/-- A `one_of` in which one alternative is required and has no default, and the other has a default. -/
def ValidEx.mixed : Node :=
  root [mode 1 []
    [.mk .oneOf 2 2 vt [.errorName (b "One of"), .required]
      [arg 3 [.longName (b "ab"), .required], flag 4 [.longName (b "cd")]]]]

/-- The default rules say that the children of a `one_of` must not be required and must not have a
default value. A tree in which one child is required and the other has a default value is accepted. -/
theorem C70_false :
    Accepted mixed ∧ ∃ n r c d, nodeAt mixed [0, 0] = some n ∧
      defaultRules.find? (fun r => r.key.matches (.node n)) = some r ∧
      .childMustNotHave .required ∈ r.conditions ∧
      .childMustNotHave .defaultValue ∈ r.conditions ∧
      c ∈ n.children ∧ .required ∈ c.policies ∧
      d ∈ n.children ∧ .defaultValue (.one (.bool false)) ∈ d.policies := by
  refine ⟨by unfold Accepted; decide +kernel, _,
    ⟨.anyOf [.node .oneOf], [.mustNotHave [.noResult, .multiStage, .validator],
      .childMustNotHave .required, .childMustNotHave .defaultValue, .parentTypes [(0, .mode)]]⟩,
    arg 3 [.longName (b "ab"), .required], flag 4 [.longName (b "cd")], rfl, rfl,
    by simp, by simp, by simp [Node.children], by simp [arg, Node.policies],
    by simp [Node.children], by simp [flag, Node.policies]⟩

/-- A `one_of` whose alternatives are all required is rejected (the hypotheses of
`C70_all_children_partial` are met by its node). -/
example : ¬ Accepted (root [mode 1 []
    [.mk .oneOf 2 2 vt [.errorName (b "One of"), .required]
      [arg 3 [.longName (b "ab"), .required], arg 4 [.longName (b "cd"), .required]]]]) := by
  unfold Accepted; decide +kernel

/-! ## C74: other guarantees of the default rules -/

theorem default_policy_unique {q : Policy} {n : Node} {ps : List Node}
    (h : checkItem defaultRules (.policy q, n :: ps) = true) : n.countKind q.kind = 1 := by
  unfold checkItem at h
  split at h
  · cases h
  · rename_i r hr
    have hmem : .uniqueInOwner ∈ r.conditions := by
      simp only [defaultRules, List.find?_cons, RuleKey.matches] at hr
      repeat' (split at hr)
      all_goals first
        | (cases hr; simp)
        | (rename_i hf; simp at hf)
        | contradiction
    have := List.all_eq_true.1 h _ hmem
    simpa [Condition.holds] using this

/-- In an accepted tree no node has two policies of the same kind. -/
theorem C74_unique_policies {root n : Node} {p : List Nat} (hacc : Accepted root)
    (hn : nodeAt root p = some n) {i j : Nat} {x y : Policy} (hx : n.policies[i]? = some x)
    (hy : n.policies[j]? = some y) (hxy : x.kind = y.kind) : i = j := by
  have h := default_policy_unique ((validate_iff.1 hacc).2 p n x hn (List.mem_of_getElem? hx))
  unfold Node.countKind at h
  have hx' : (x.kind == x.kind) = true := by simp
  have hy' : (y.kind == x.kind) = true := by simp [hxy]
  rcases Nat.lt_trichotomy i j with hlt | heq | hgt
  · have := two_le_countP (fun p => p.kind == x.kind) _ _ _ _ _ hx hy hx' hy' hlt; omega
  · exact heq
  · have := two_le_countP (fun p => p.kind == x.kind) _ _ _ _ _ hy hx hy' hx' hgt; omega

theorem has_of_mem {n : Node} {q : Policy} (h : q ∈ n.policies) : n.has q.kind = true :=
  List.any_eq_true.2 ⟨q, h, by simp⟩

/-- In an accepted tree no node is both required and given a default value, and a node with an
unprefixed name or a display name has no other name. -/
theorem C74_exclusive {root n : Node} {p : List Nat} (hacc : Accepted root)
    (hn : nodeAt root p = some n) :
    (.required ∈ n.policies → ∀ v, .defaultValue v ∉ n.policies) ∧
    (∀ s, .noneName s ∈ n.policies → ∀ t, .longName t ∉ n.policies ∧ .shortName t ∉ n.policies ∧
      .displayName t ∉ n.policies) ∧
    (∀ s, .displayName s ∈ n.policies → ∀ t, .longName t ∉ n.policies ∧
      .shortName t ∉ n.policies) := by
  have hp := (validate_iff.1 hacc).2 p n
  refine ⟨?_, ?_, ?_⟩
  · intro hr v hv
    have h := hp _ hn hr
    simp [checkItem, defaultRules, RuleKey.matches, Policy.kind, Condition.holds] at h
    have := has_of_mem hv
    simp only [Policy.kind] at this
    rw [this] at h; exact absurd h.2 (by simp)
  · intro s hs t
    have h := hp _ hn hs
    simp [checkItem, defaultRules, RuleKey.matches, Policy.kind] at h
    obtain ⟨_, _, h1, h2, h3⟩ := h
    simp only [Condition.holds, Bool.not_eq_true'] at h1 h2 h3
    refine ⟨fun ht => ?_, fun ht => ?_, fun ht => ?_⟩
    · have := has_of_mem ht; simp only [Policy.kind] at this; rw [h1] at this; cases this
    · have := has_of_mem ht; simp only [Policy.kind] at this; rw [h2] at this; cases this
    · have := has_of_mem ht; simp only [Policy.kind] at this; rw [h3] at this; cases this
  · intro s hs t
    have h := hp _ hn hs
    simp [checkItem, defaultRules, RuleKey.matches, Policy.kind] at h
    obtain ⟨_, h1, h2, h3⟩ := h
    simp only [Condition.holds, Bool.not_eq_true'] at h1 h2 h3
    refine ⟨fun ht => ?_, fun ht => ?_⟩
    · have := has_of_mem ht; simp only [Policy.kind] at this; rw [h1] at this; cases this
    · have := has_of_mem ht; simp only [Policy.kind] at this; rw [h2] at this; cases this

/-- In an accepted tree modes are children of root or of modes, groups are children of modes, help is
a child of root, and routers belong to modes or to children of root. -/
theorem C74_places {root n : Node} {p : List Nat} (hacc : Accepted root)
    (hn : nodeAt root p = some n) :
    (n.kind = .mode → ∃ q, (lineage root p).head? = some q ∧ (q.kind = .root ∨ q.kind = .mode)) ∧
    (n.kind = .oneOf ∨ n.kind = .aliasGroup →
      ∃ q, (lineage root p).head? = some q ∧ q.kind = .mode) ∧
    (n.kind = .help → ∃ q, (lineage root p).head? = some q ∧ q.kind = .root) ∧
    (.router ∈ n.policies → n.kind = .mode ∨
      ∃ q, (lineage root p).head? = some q ∧ q.kind = .root) := by
  have h := (validate_iff.1 hacc).1 p n hn
  refine ⟨fun hk => (default_mode_rule hk h).2.2.2, ?_, ?_, ?_⟩
  · rintro (hk | hk)
    · simp [checkItem, defaultRules, RuleKey.matches, hk] at h
      have h4 := h.2.2.2
      simp only [Condition.holds] at h4
      cases hl : lineage root p with
      | nil => simp [hl] at h4
      | cons q ps => rw [hl] at h4; exact ⟨q, rfl, by simpa using h4⟩
    · simp [checkItem, defaultRules, RuleKey.matches, hk] at h
      have h4 := h.2.2.2
      simp only [Condition.holds] at h4
      cases hl : lineage root p with
      | nil => simp [hl] at h4
      | cons q ps => rw [hl] at h4; exact ⟨q, rfl, by simpa using h4⟩
  · intro hk
    simp [checkItem, defaultRules, RuleKey.matches, hk] at h
    have h4 := h.2
    simp only [Condition.holds] at h4
    cases hl : lineage root p with
    | nil => simp [hl] at h4
    | cons q ps => rw [hl] at h4; exact ⟨q, rfl, by simpa using h4⟩
  · intro hr
    have h := (validate_iff.1 hacc).2 p n _ hn hr
    simp [checkItem, defaultRules, RuleKey.matches, Policy.kind] at h
    have h4 := h.2
    simp only [Condition.holds] at h4
    cases hl : lineage root p with
    | nil => rw [hl] at h4; left; simpa using h4
    | cons q ps =>
      rw [hl] at h4
      simp at h4
      rcases h4 with h4 | h4
      · exact Or.inl h4
      · exact Or.inr ⟨q, rfl, h4⟩

/-- In an accepted tree no mode is an alias, depends on other arguments or is required; flags are
never required; positional arguments are never aliases, and have a minimum count of at least one if
they are required. -/
theorem C74_forbidden {root n : Node} {p : List Nat} (hacc : Accepted root)
    (hn : nodeAt root p = some n) :
    (n.kind = .mode → ∀ q ∈ n.policies, q ≠ .required ∧ (∀ r, q ≠ .alias r) ∧
      (∀ r, q ≠ .dependent r)) ∧
    (n.kind = .flag ∨ n.kind = .countingFlag → .required ∉ n.policies) ∧
    (n.kind = .positional → (∀ r, .alias r ∉ n.policies) ∧
      (.required ∈ n.policies → ∀ mn mx, n.minMaxCount = some (mn, mx) → 1 ≤ mn)) := by
  have h := (validate_iff.1 hacc).1 p n hn
  refine ⟨?_, ?_, ?_⟩
  · intro hk q hq
    have h1 := (default_mode_rule hk h).1
    refine ⟨?_, ?_, ?_⟩
    · rintro rfl
      have := has_of_mem hq; simp only [Policy.kind] at this
      rw [h1 _ (by simp)] at this; cases this
    · rintro r rfl
      have := has_of_mem hq; simp only [Policy.kind] at this
      rw [h1 _ (by simp)] at this; cases this
    · rintro r rfl
      have := has_of_mem hq; simp only [Policy.kind] at this
      rw [h1 _ (by simp)] at this; cases this
  · rintro (hk | hk) hq
    · simp [checkItem, defaultRules, RuleKey.matches, hk, Condition.holds] at h
      have := has_of_mem hq; simp only [Policy.kind] at this
      rw [h.2.2.1] at this; cases this
    · simp [checkItem, defaultRules, RuleKey.matches, hk, Condition.holds] at h
      have := has_of_mem hq; simp only [Policy.kind] at this
      rw [h.2.1] at this; cases this
  · intro hk
    simp [checkItem, defaultRules, RuleKey.matches, hk] at h
    obtain ⟨h1, h2⟩ := h
    simp [Condition.holds] at h1
    refine ⟨fun r hr => ?_, fun hr mn mx hmm => ?_⟩
    · have := has_of_mem hr; simp only [Policy.kind] at this
      rw [h1.1] at this; cases this
    · have := has_of_mem hr
      simp only [Policy.kind] at this
      simpa [Condition.holds, Node.isRequired, this, Node.minCount, hmm] using h2

/-- The hypotheses of the four C74 theorems are met by every node of `good`; a mode, a flag and a
positional argument with a minimum count: -/
example : Accepted good ∧ nodeAt good [0] = some goodMode ∧ goodMode.kind = .mode ∧
    ((nodeAt good [0, 0]).map Node.kind) = some .flag ∧
    ((nodeAt good [0, 2]).map fun n => (n.kind, n.minMaxCount)) =
      some (.positional, some (1, sizeMax)) :=
  ⟨by unfold Accepted; decide +kernel, rfl, rfl, rfl, rfl⟩
/-- A required flag, a mode inside a group and a node with two descriptions are rejected. -/
example : ¬ Accepted (root [mode 1 [] [flag 2 [.longName (b "ab"), .required]]]) ∧
    ¬ Accepted (root [mode 1 [] [.mk .oneOf 2 2 vt [.errorName (b "One of")]
      [mode 3 [] [flag 4 [.longName (b "ab")]]]]]) ∧
    ¬ Accepted (root [mode 1 [] [flag 2 [.longName (b "ab"), .description (b "x"),
      .description (b "y")]]]) := by
  unfold Accepted; decide +kernel

end ArgRouter.Props

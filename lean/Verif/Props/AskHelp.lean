import Verif.Help.Program
import Verif.Props.Help
import Verif.Props.Root
import Verif.Props.Leaf
import Verif.Props.Compile

/-!
# Asking for help

C83: `program --help names...` shows the help of the node the names lead to, and does nothing else.
C84: `root.help()` shows what `program --help` shows.
-/

namespace ArgRouter

namespace Spec

/-- What the library leaves to the author of a program for its help to be shown: no short name looks
like a long one, the descriptions are text, the labels are not absurdly wide, and two columns are left
for the descriptions. -/
structure Helpful (f : HelpFormat) (info : HelpInfo) (tree : Node) : Prop where
  shorts : ∀ n ∈ tree.nodes, ∀ s, n.shortName = some s →
    ¬ info.cfg.longPrefix <+: info.cfg.shortPrefix ++ s
  texts : ∀ n ∈ tree.nodes, Text n.helpDescription
  labels : ∀ n ∈ tree.nodes, ∀ flatten, ∀ row ∈ (staticHelp info flatten n).flat 0,
    ∃ w, Utf8.terminalWidth row.2.1 = .ok w ∧ row.1 * f.indent + w + f.indent < 2 ^ 31
  offset : 2 ≤ f.offset

/-- The formatter writes its lines as one of the library's formatters does. -/
def LibraryLines (f : Formatter) : Prop := f.line = formatRow ∨ f.line = formatRowColour

end Spec

open Utf8 Spec

namespace Props

/-! ## Programs and their trees -/

section
variable {g : Node → List Token → Out Bytes}

theorem installs_eq (cs : List Node) : installs g cs = cs.map (install g) := by
  induction cs with
  | nil => rfl
  | cons c cs ih => rw [installs, ih]; rfl

theorem install_kind (n : Node) : (install g n).kind = n.kind := by cases n; rfl
theorem install_uid (n : Node) : (install g n).uid = n.uid := by cases n; rfl

theorem install_children (n : Node) : (install g n).children = n.children.map (install g) := by
  cases n; exact installs_eq _

theorem install_policies (n : Node) : (install g n).policies =
    if n.kind = .help then .helpText (g n) :: n.policies else n.policies := by
  cases n; rfl

/-- What is looked for among the policies, other than a formatter, stays the same. -/
theorem install_find {α : Type} (f : Policy → Option α) (hf : ∀ t, f (.helpText t) = none)
    (n : Node) : (install g n).policies.findSome? f = n.policies.findSome? f := by
  rw [install_policies]
  split
  · rw [List.findSome?_cons, hf]
  · rfl

theorem install_longName (n : Node) : (install g n).longName = n.longName :=
  install_find _ (fun _ => rfl) n
theorem install_shortName (n : Node) : (install g n).shortName = n.shortName :=
  install_find _ (fun _ => rfl) n
theorem install_noneName (n : Node) : (install g n).noneName = n.noneName :=
  install_find _ (fun _ => rfl) n
theorem install_displayName (n : Node) : (install g n).displayName = n.displayName :=
  install_find _ (fun _ => rfl) n
theorem install_enabled (n : Node) : (install g n).runtimeEnabled = n.runtimeEnabled :=
  install_find _ (fun _ => rfl) n
theorem install_description (n : Node) : (install g n).descriptionText = n.descriptionText :=
  install_find _ (fun _ => rfl) n
theorem install_separator (n : Node) : (install g n).separator = n.separator :=
  install_find _ (fun _ => rfl) n
theorem install_count (n : Node) : (install g n).minMaxCount = n.minMaxCount :=
  install_find _ (fun _ => rfl) n

theorem install_matches (cfg : Config) (n : Node) (name : Bytes) :
    (install g n).matchToken ((install g n).getToken cfg name) = n.matchToken (n.getToken cfg name) := by
  unfold Node.matchToken Node.getToken
  rw [install_longName, install_shortName, install_noneName]

theorem install_target (cfg : Config) (ts : List Token) (n : Node) :
    findHelpTarget cfg ts (install g n) = (do let m ← findHelpTarget cfg ts n; return install g m) := by
  induction ts generalizing n with
  | nil =>
    simp only [findHelpTarget, install_enabled]
    split <;> rfl
  | cons t ts ih =>
    simp only [findHelpTarget, install_enabled]
    split
    · rfl
    · rw [install_children, List.find?_map]
      have : ((fun c : Node => c.matchToken (c.getToken cfg t.name)) ∘ install g) =
          fun c : Node => c.matchToken (c.getToken cfg t.name) := by
        funext c; exact install_matches cfg c t.name
      rw [this]
      cases hf : n.children.find? fun c => c.matchToken (c.getToken cfg t.name) with
      | none => rfl
      | some c => exact ih c

/-! The help output of the program's tree is the one of the tree it was made from. -/

variable {info : HelpInfo} (hr : ∀ n, info.range (install g n) = info.range n)
include hr

theorem install_valueSuffix (n : Node) : (install g n).valueSuffix info = n.valueSuffix info := by
  unfold Node.valueSuffix
  rw [hr]

theorem install_label (n : Node) : (install g n).helpLabel info = n.helpLabel info := by
  unfold Node.helpLabel Node.labelGenerator Node.valueSeparatorSuffix Node.countSuffix
    Node.isAnonymous
  rw [install_kind, install_longName, install_shortName, install_noneName, install_displayName,
    install_count, install_separator, install_valueSuffix hr]

omit hr in
theorem install_helpDescription (n : Node) :
    (install g n).helpDescription = n.helpDescription := by
  unfold Node.helpDescription
  rw [install_kind, install_description]

omit hr in
theorem install_shown (n : Node) : (install g n).helpShown = n.helpShown := by
  unfold Node.helpShown
  rw [install_enabled]

omit hr in
theorem install_anonymous (n : Node) : (install g n).isAnonymous = n.isAnonymous := by
  unfold Node.isAnonymous
  rw [install_noneName]

mutual
theorem install_static (f : Bool) : ∀ n : Node,
    staticHelp info f (install g n) = staticHelp info f n
  | .mk k u h v p cs => by
    have e1 := install_label hr (.mk k u h v p cs)
    have e2 := install_helpDescription (g := g) (.mk k u h v p cs)
    have e3 := install_anonymous (g := g) (.mk k u h v p cs)
    rw [install] at e1 e2 e3 ⊢
    generalize (if k = .help then Policy.helpText (g (.mk k u h v p cs)) :: p else p) = q
      at e1 e2 e3 ⊢
    have e4 := install_statics f cs
    cases k <;> simp only [staticHelp, e1, e2, e3, e4]
theorem install_statics (f : Bool) : ∀ cs : List Node,
    staticHelps info f (installs g cs) = staticHelps info f cs
  | [] => rfl
  | c :: cs => by
    rw [installs, staticHelps, staticHelps, install_static f c, install_statics f cs]
end

mutual
theorem install_rows (f : Bool) : ∀ n : Node,
    runtimeRows info f (install g n) = runtimeRows info f n
  | .mk k u h v p cs => by
    have e3 := install_anonymous (g := g) (.mk k u h v p cs)
    rw [install] at e3 ⊢
    generalize (if k = .help then Policy.helpText (g (.mk k u h v p cs)) :: p else p) = q at e3 ⊢
    have e4 := install_defaults true cs
    have e5 := install_defaults f cs
    cases k <;> simp only [runtimeRows, e3, e4, e5]
theorem install_defaults (f : Bool) : ∀ cs : List Node,
    defaultRows info f (installs g cs) = defaultRows info f cs
  | [] => rfl
  | c :: cs => by
    rw [installs, defaultRows, defaultRows, install_shown, install_label hr,
      install_helpDescription, install_rows f c, install_defaults f cs]
end

theorem install_generate (line : Nat → Nat → Nat → Nat × Bytes × Bytes → Out Bytes)
    (f : HelpFormat) (columns : Nat) (flatten : Bool) (n : Node) :
    generateHelp line f info columns flatten (install g n) =
      generateHelp line f info columns flatten n := by
  unfold generateHelp runtimeHelp
  rw [install_static hr, install_rows hr, install_label hr, install_helpDescription]

/-- Nothing is lost by handing the help nodes the tree without formatters: the output for the
program itself is the same. -/
theorem helpParse_program (line : Nat → Nat → Nat → Nat × Bytes × Bytes → Out Bytes)
    (f : HelpFormat) (columns : Nat) (ts : List Token) (n : Node) :
    helpParse line f info columns ts (install g n) = helpParse line f info columns ts n := by
  unfold helpParse
  rw [install_target]
  cases findHelpTarget info.cfg ts n with
  | ok m =>
    show generateHelp line f info columns (f.flattenHelp || (install g m).kind != .root)
      (install g m) = generateHelp line f info columns (f.flattenHelp || m.kind != .root) m
    rw [install_kind, install_generate hr]
  | _ => rfl

end

/-! ## C83 -/

/-- What the user sees of a help output: it is handed to the router of the help node (or printed); or
there was none. -/
def shown (h : Node) (s : St) : Out Bytes → Out Unit × St
  | .ok text => (.ok (), { s with calls := s.calls ++ [⟨h.uid, [.one (.str text)]⟩] })
  | .throw e => (.throw e, s)
  | .foreign => (.foreign, s)
  | .ub => (.ub, s)
  | .diverge => (.diverge, s)

theorem install_isNamed {g : Node → List Token → Out Bytes} (n : Node) :
    (install g n).isNamed = n.isNamed := by
  unfold Node.isNamed
  rw [install_longName, install_shortName, install_noneName]

theorem install_spelled {g : Node → List Token → Out Bytes} (cfg : Config) (n : Node) (s : Bytes) :
    Spelled cfg (install g n) s ↔ Spelled cfg n s := by
  unfold Spelled
  rw [install_longName, install_shortName, install_noneName]

theorem install_matchPolicies {g : Node → List Token → Out Bytes} {n : Node} {ps : List Policy}
    (h : MatchPolicies n ps) : MatchPolicies (install g n) ps := by
  unfold MatchPolicies at *
  rw [install_policies]
  split
  · rw [List.filter_cons]
    exact h
  · exact h

/-- C83 (exactly): on the command line `label names...`, where `label` is a name of a help node in root
and the nodes before it do not take the command line, the program shows the help output for `names`,
and does nothing else. -/
theorem C83_exact (fmt : Node → Formatter) (info : HelpInfo) (columns : Nat) (tree h : Node)
    (before after : List Node) (htree : tree.children = before ++ h :: after)
    (hk : h.kind = .help) (hcount : MatchPolicies h [.minMaxCount 0 sizeMax]) (label : Bytes)
    (hlabel : Spelled info.cfg h label) (names : List Bytes) (hlen : names.length + 1 < 2 ^ 63)
    (s s1 : St) (hdec : Declined info.cfg (program fmt info columns tree)
      ((label :: names).map (Token.mk .none))
      ((program fmt info columns tree).children.take before.length) s s1) :
    parseArgs info.cfg (program fmt info columns tree) (label :: names) s =
      shown h s1 (helpParse (fmt h).line (fmt h).format info columns
        (names.map (Token.mk .none)) tree) := by
  have hch := install_children (g := fun h ts =>
    helpParse (fmt h).line (fmt h).format info columns ts tree) tree
  change (program fmt info columns tree).children = _ at hch
  rw [htree, List.map_append, List.map_cons] at hch
  generalize hg : (fun (h : Node) ts =>
    helpParse (fmt h).line (fmt h).format info columns ts tree) = g at hch
  have htake : (program fmt info columns tree).children.take before.length =
      before.map (install g) := by
    rw [hch, List.take_append_of_le_length (by simp), List.take_of_length_le (by simp)]
  rw [htake] at hdec
  have hk' : (install g h).kind = .help := by rw [install_kind, hk]
  have hlab : IsLabel info.cfg (install g h) ⟨.none, label⟩ := (install_spelled _ _ _).2 hlabel
  have hnamed := IsLabel.named hlab
  have hmatch : offerTo info.cfg (program fmt info columns tree)
      ((label :: names).map (Token.mk .none)) (install g h) s1 =
      (.ok (some (⟨install g h, names.map (Token.mk .none), []⟩, [])), s1) := by
    unfold offerTo
    rw [if_neg (by rw [hk']; decide), preParse_leaf _ _ _ _ _ _ (by simp [Node.isGroup, hk']),
      List.map_cons, C07_named _ _ 0 sizeMax _ _ _ _ _ (install_matchPolicies hcount) hnamed
        (Nat.le_refl _) (by simpa using hlen) hlab]
    have hle : (names.map (Token.mk .none)).length ≤ sizeMax := by
      simp only [List.length_map, sizeMax]; omega
    rw [if_pos (Nat.zero_le _), List.take_of_length_le hle, List.drop_eq_nil_of_le hle]
    rfl
  rw [C28_first_match _ _ _ _ _ _ _ _ _ _ hch hdec hmatch]
  unfold runTarget
  rw [if_neg (by simp [hk'])]
  have hout : helpOutput (install g h) (names.map (Token.mk .none)) =
      helpParse (fmt h).line (fmt h).format info columns (names.map (Token.mk .none)) tree := by
    unfold helpOutput
    rw [install_policies, if_pos hk]
    simp only [List.findSome?_cons]
    rw [← hg]
  simp only [parseLeaf, hk', hout]
  cases helpParse (fmt h).line (fmt h).format info columns (names.map (Token.mk .none)) tree with
  | ok text => simp only [shown, ← install_uid (g := g) h]; rfl
  | _ => rfl


/-! ### Programs that compile -/

theorem install_nodeAt {g : Node → List Token → Out Bytes} (n : Node) (p : List Nat) :
    nodeAt (install g n) p = (nodeAt n p).map (install g) := by
  induction p generalizing n with
  | nil => rfl
  | cons i p ih =>
    rw [nodeAt, nodeAt, install_children, List.getElem?_map]
    cases n.children[i]? with
    | none => rfl
    | some c => exact ih c

theorem mem_install {g : Node → List Token → Out Bytes} {tree m : Node} :
    m ∈ (install g tree).nodes ↔ ∃ n ∈ tree.nodes, m = install g n := by
  rw [mem_nodes]
  simp only [install_nodeAt, Option.map_eq_some_iff]
  constructor
  · rintro ⟨p, n, h1, h2⟩
    exact ⟨n, mem_nodes.2 ⟨p, h1⟩, h2.symm⟩
  · rintro ⟨n, hn, rfl⟩
    obtain ⟨p, hp⟩ := mem_nodes.1 hn
    exact ⟨p, n, hp, rfl⟩

/-- Policies other than the formatter are those of the tree. -/
theorem mem_install_policies {g : Node → List Token → Out Bytes} {n : Node} {q : Policy}
    (h : q ∈ (install g n).policies) : q ∈ n.policies ∨ n.kind = .help ∧ q = .helpText (g n) := by
  rw [install_policies] at h
  split at h
  · rename_i hk
    rcases List.mem_cons.1 h with h | h
    · exact .inr ⟨hk, h⟩
    · exact .inl h
  · exact .inl h

/-- The trees that compile have the shape the help output relies on. -/
theorem compiles_helpTree {cfg : Config} {depth : Nat} {root : Node}
    (hc : compiles cfg depth defaultRules root = true) : HelpTree root := by
  obtain ⟨htop, hacc, hnodes⟩ := compiles_iff_parts hc
  have hparts : ∀ p n, nodeAt root p = some n → _ := fun p n hn => nodeAsserts_parts (hnodes p n hn)
  have hnoRoot : ∀ n ∈ root.nodes, ∀ c ∈ n.children, c.kind ≠ .root := by
    intro n hn c hcn hk
    obtain ⟨p, hp⟩ := mem_nodes.1 hn
    obtain ⟨q, hq, hl⟩ := lineage_child hp hcn
    have := (root_no_router hk (hparts q c hq).2.1).2
    rw [hl] at this; cases this
  refine ⟨?_, ?_, ?_, hnoRoot⟩
  · intro n hn hr
    obtain ⟨p, hp⟩ := mem_nodes.1 hn
    have := (hparts p n hp).2.1
    cases hk : n.kind <;> simp_all [classAsserts, multiArgBaseAsserts, Runnable]
  · intro n hn hg c hcn
    obtain ⟨p, hp⟩ := mem_nodes.1 hn
    obtain ⟨q, hq, hl⟩ := lineage_child hp hcn
    have hplace := C74_places hacc hq
    have hnk : n.kind ≠ .mode ∧ n.kind ≠ .root := by
      rcases hg with h | h <;> simp [h]
    have h1 : c.kind ≠ .mode := by
      intro hk
      obtain ⟨m, hm, h⟩ := hplace.1 hk
      rw [hl] at hm; cases hm
      rcases h with h | h
      · exact hnk.2 h
      · exact hnk.1 h
    have h2 : ¬ (c.kind = .oneOf ∨ c.kind = .aliasGroup) := by
      intro hk
      obtain ⟨m, hm, h⟩ := hplace.2.1 hk
      rw [hl] at hm; cases hm
      exact hnk.1 h
    have h3 := hnoRoot n hn c hcn
    cases hk : c.kind <;> simp_all [Runnable]
  · intro n hn hk ha c hcn
    obtain ⟨p, hp⟩ := mem_nodes.1 hn
    have := (hparts p n hp).2.1
    simp only [classAsserts, hk, ha, Bool.and_eq_true, Bool.not_true, Bool.false_or,
      List.all_eq_true, bne_iff_ne] at this
    exact this.1.1.1.1.2 c hcn

/-- A node of a program that compiles has either a plain name or prefixed names. -/
theorem compiles_plain {cfg : Config} {depth : Nat} {rules : List Rule} {root n : Node}
    (hc : compiles cfg depth rules root = true) (hn : n ∈ root.nodes)
    (h : n.noneName.isSome = true) : n.longName = none ∧ n.shortName = none := by
  obtain ⟨-, -, hnodes⟩ := compiles_iff_parts hc
  obtain ⟨p, hp⟩ := mem_nodes.1 hn
  have := (nodeAsserts_parts (hnodes p n hp)).2.1
  cases hk : n.kind <;>
    simp_all [classAsserts, multiArgBaseAsserts, basicOneOfAsserts, Node.isNamed]

theorem install_helpTree {g : Node → List Token → Out Bytes} {tree : Node}
    (h : HelpTree (install g tree)) : HelpTree tree := by
  have hr : ∀ n, Runnable (install g n) = Runnable n := by
    intro n; unfold Runnable; rw [install_kind]
  refine ⟨fun n hn h1 => ?_, fun n hn h1 c hc => ?_, fun n hn h1 h2 c hc => ?_, fun n hn c hc => ?_⟩
  all_goals have hn' := mem_install (g := g).2 ⟨n, hn, rfl⟩
  · have := h.leaf _ hn' (by rw [hr]; exact h1)
    rw [install_children] at this
    exact List.map_eq_nil_iff.1 this
  all_goals
    have hc' : install g c ∈ (install g n).children := by
      rw [install_children]; exact List.mem_map_of_mem hc
  · have := h.group _ hn' (by unfold IsGroup; rw [install_kind]; exact h1) _ hc'
    rwa [hr] at this
  · have := h.anon _ hn' (by rw [install_kind]; exact h1) (by rw [install_anonymous]; exact h2) _ hc'
    rwa [install_kind] at this
  · have := h.noRoot _ hn' _ hc'
    rwa [install_kind] at this

/-! ### When the names lead somewhere -/

mutual
theorem descColumn_bound (ind B : Nat) : ∀ (row : HelpRow) (d m D : Nat),
    descColumn ind d row m = .ok D → m < B →
    (∀ r ∈ row.flat d, ∃ w, terminalWidth r.2.1 = .ok w ∧ r.1 * ind + w + ind < B) → D < B
  | .mk l ds cs, d, m, D, h, hm, hr => by
    rw [HelpRow.flat] at hr
    obtain ⟨w, hw, hb⟩ := hr _ List.mem_cons_self
    dsimp only at hw hb
    rw [descColumn, hw] at h
    simp only [Out.ok_bind] at h
    exact descColumns_bound ind B cs _ _ _ h (by omega) fun r hr2 => hr r (List.mem_cons_of_mem _ hr2)
theorem descColumns_bound (ind B : Nat) : ∀ (rows : List HelpRow) (d m D : Nat),
    descColumns ind d rows m = .ok D → m < B →
    (∀ r ∈ HelpRow.flatList d rows, ∃ w, terminalWidth r.2.1 = .ok w ∧ r.1 * ind + w + ind < B) →
    D < B
  | [], d, m, D, h, hm, hr => by
    simp only [descColumns, Out.ok.injEq] at h
    omega
  | row :: rows, d, m, D, h, hm, hr => by
    rw [HelpRow.flatList] at hr
    rw [descColumns] at h
    cases hd : descColumn ind d row m with
    | ok m' =>
      rw [hd] at h
      simp only [Out.ok_bind] at h
      have := descColumn_bound ind B row d m m' hd hm fun r hr2 => hr r (List.mem_append_left _ hr2)
      exact descColumns_bound ind B rows _ _ _ h this fun r hr2 => hr r (List.mem_append_right _ hr2)
    | _ => rw [hd] at h; simp at h
end

theorem follows_mem {cfg : Config} {n m : Node} {names : List Bytes} (h : Follows cfg n names m) :
    m ∈ n.nodes := by
  induction h with
  | here => exact self_mem_nodes _
  | down _ hc _ _ _ ih => exact child_mem_nodes (by rw [hc]; simp) _ ih

theorem helpTree_below {tree n : Node} (h : HelpTree tree) (hn : n ∈ tree.nodes) : HelpTree n :=
  have hs : ∀ x ∈ n.nodes, x ∈ tree.nodes := nodes_trans _ _ hn
  ⟨fun x hx => h.leaf x (hs x hx), fun x hx => h.group x (hs x hx), fun x hx => h.anon x (hs x hx),
    fun x hx => h.noRoot x (hs x hx)⟩

/-- The help output of each node of a helpful tree is produced. -/
theorem helpful_output {f : Formatter} (hf : LibraryLines f) {info : HelpInfo} {tree n : Node}
    (h : Helpful f.format info tree) (hs : HelpTree tree) (hn : n ∈ tree.nodes) {columns : Nat}
    (hc : columns < 2 ^ 64) (flatten : Bool) :
    ∃ text, generateHelp f.line f.format info columns flatten n = .ok text := by
  have hl := h.labels n hn flatten
  obtain ⟨D, hD⟩ := descColumn_total f.format.indent (staticHelp info flatten n) 0 0 fun r hr =>
    let ⟨w, hw, _⟩ := hl r hr
    ⟨w, hw⟩
  have hD2 := descColumn_bound f.format.indent (2 ^ 31) _ _ _ _ hD (by omega) hl
  exact C52_produced_partial f.line hf f.format h.offset info columns hc flatten n
    (helpTree_below hs hn) (fun m hm => h.texts m (nodes_trans _ _ hn _ hm)) D hD hD2

/-- What asking a helpful tree for help leads to: the help of the node the names lead to, or the report
that a name is unknown; or a node that is switched off. -/
theorem helpful_parse {f : Formatter} (hf : LibraryLines f) {info : HelpInfo} {tree : Node}
    (h : Helpful f.format info tree) (hs : HelpTree tree)
    (hplain : ∀ n ∈ tree.nodes, n.noneName.isSome = true → n.longName = none ∧ n.shortName = none)
    {columns : Nat} (hc : columns < 2 ^ 64) (ts : List Token) :
    (∃ m text, Follows info.cfg tree (ts.map (·.name)) m ∧ SwitchedOff m = false ∧
      generateHelp f.line f.format info columns (f.format.flattenHelp || m.kind != .root) m = .ok text ∧
      helpParse f.line f.format info columns ts tree = .ok text) ∨
    (∃ pre t post m, ts = pre ++ t :: post ∧ Follows info.cfg tree (pre.map (·.name)) m ∧
      (SwitchedOff m = true ∨ ∀ c ∈ m.children, ¬ Selects info.cfg c t.name) ∧
      helpParse f.line f.format info columns ts tree = .throw ⟨.unknown_argument, [t]⟩) ∨
    ∃ m, Follows info.cfg tree (ts.map (·.name)) m ∧ SwitchedOff m = true ∧
      helpParse f.line f.format info columns ts tree = .ub := by
  have hl := C53_exact info.cfg tree (fun n hn => ⟨hplain n hn, h.shorts n hn⟩) ts
  unfold helpParse
  generalize findHelpTarget info.cfg ts tree = g at hl
  cases hl with
  | @found m h2 hon =>
    obtain ⟨text, ht⟩ := helpful_output hf h hs (follows_mem h2) hc
      (f.format.flattenHelp || m.kind != .root)
    exact .inl ⟨m, text, h2, hon, ht, ht⟩
  | @unknown pre t post m h1 h2 h3 => exact .inr (.inl ⟨pre, t, post, m, h1, h2, h3, rfl⟩)
  | @crash m h2 h3 => exact .inr (.inr ⟨m, h2, h3, rfl⟩)

theorem program_parts {fmt : Node → Formatter} {info : HelpInfo} {columns depth : Nat} {tree : Node}
    (hc : compiles info.cfg depth defaultRules (program fmt info columns tree) = true) :
    HelpTree tree ∧
      ∀ n ∈ tree.nodes, n.noneName.isSome = true → n.longName = none ∧ n.shortName = none := by
  refine ⟨install_helpTree (compiles_helpTree hc), fun n hn h => ?_⟩
  have := compiles_plain hc (mem_install.2 ⟨n, hn, rfl⟩) (by rw [install_noneName]; exact h)
  rwa [install_longName, install_shortName] at this

/-- C83, what holds: in a program that compiles, on the command line `label names...`, with a help
node that uses one of the library's formatters, one of two things happens. The names lead to a node that
is switched on, and the help output of this node (flattened, unless it is the root) is shown. Or a name
does not lead to a node or is asked of a node that is switched off, and is reported as unknown; nothing
is called then. Missing from the full statement: asking for the help of a node that is switched off,
see `C83_false`, and texts of C34. -/
theorem C83_partial (fmt : Node → Formatter) (info : HelpInfo) (columns depth : Nat) (tree h : Node)
    (hc : compiles info.cfg depth defaultRules (program fmt info columns tree) = true)
    (before after : List Node) (htree : tree.children = before ++ h :: after)
    (hk : h.kind = .help) (hcount : MatchPolicies h [.minMaxCount 0 sizeMax]) (label : Bytes)
    (hlabel : Spelled info.cfg h label) (names : List Bytes) (hlen : names.length + 1 < 2 ^ 63)
    (s s1 : St) (hdec : Declined info.cfg (program fmt info columns tree)
      ((label :: names).map (Token.mk .none))
      ((program fmt info columns tree).children.take before.length) s s1)
    (hline : LibraryLines (fmt h)) (hh : Helpful (fmt h).format info tree)
    (hcol : columns < 2 ^ 64)
    (hon : ∀ m, Follows info.cfg tree names m → SwitchedOff m = false) :
    (∃ m text, Follows info.cfg tree names m ∧
      generateHelp (fmt h).line (fmt h).format info columns
        ((fmt h).format.flattenHelp || m.kind != .root) m = .ok text ∧
      parseArgs info.cfg (program fmt info columns tree) (label :: names) s =
        (.ok (), { s1 with calls := s.calls ++ [⟨h.uid, [.one (.str text)]⟩] })) ∨
    ∃ pre name post m, names = pre ++ name :: post ∧ Follows info.cfg tree pre m ∧
      (SwitchedOff m = true ∨ ∀ c ∈ m.children, ¬ Selects info.cfg c name) ∧
      parseArgs info.cfg (program fmt info columns tree) (label :: names) s =
        (.throw ⟨.unknown_argument, [⟨.none, name⟩]⟩, s1) ∧ s1.calls = s.calls := by
  rw [C83_exact fmt info columns tree h before after htree hk hcount label hlabel names hlen s s1 hdec]
  have hmap : ∀ l : List Bytes, (l.map (Token.mk .none)).map (·.name) = l := by
    intro l; rw [List.map_map]; exact List.map_id' l
  rcases helpful_parse hline hh (program_parts hc).1 (program_parts hc).2 hcol
      (names.map (Token.mk .none)) with
    ⟨m, text, h1, h2, h2', h3⟩ | ⟨pre, t, post, m, h1, h2, h3, h4⟩ | ⟨m, h1, h2, -⟩
  · rw [hmap] at h1
    refine .inl ⟨m, text, h1, h2', ?_⟩
    rw [h3, shown, declined_quiet hdec]
  · obtain ⟨l1, l2, rfl, rfl, h5⟩ := List.map_eq_append_iff.1 h1
    obtain ⟨x, l3, rfl, rfl, rfl⟩ := List.map_eq_cons_iff.1 h5
    rw [hmap] at h2
    exact .inr ⟨l1, x, l3, m, rfl, h2, h3, by rw [h4, shown], declined_quiet hdec⟩
  · rw [hmap] at h1
    rw [hon m h1] at h2; cases h2

/-! ### Programs with help are safe -/

/-- A careful author's tree makes a careful program, if the help of its help nodes can be shown. -/
theorem program_careful {fmt : Node → Formatter} {info : HelpInfo} {columns depth : Nat} {tree : Node}
    (hc : compiles info.cfg depth defaultRules (program fmt info columns tree) = true)
    (hcare : Careful tree) (hfmt : ∀ n ∈ tree.nodes, ∀ f, .helpText f ∉ n.policies)
    (hhelp : ∀ h ∈ tree.nodes, h.kind = .help →
      LibraryLines (fmt h) ∧ Helpful (fmt h).format info tree)
    (hon : ∀ n ∈ tree.nodes, SwitchedOff n = false)
    (hcol : columns < 2 ^ 64) : Careful (program fmt info columns tree) := by
  have hf : ∀ n ∈ (program fmt info columns tree).nodes, ∀ f, .helpText f ∈ n.policies →
      ∀ ts, f ts ≠ .ub ∧ f ts ≠ .foreign ∧ f ts ≠ .diverge := by
    intro n hn f hf ts
    obtain ⟨m, hm, rfl⟩ := mem_install.1 hn
    rcases mem_install_policies hf with h | ⟨hk, h⟩
    · exact absurd h (hfmt m hm f)
    · injection h with h
      subst h
      obtain ⟨h1, h2⟩ := hhelp m hm hk
      dsimp only
      rcases helpful_parse h1 h2 (program_parts hc).1 (program_parts hc).2 hcol ts with
        ⟨_, _, _, _, _, h3⟩ | ⟨_, _, _, _, _, _, _, h3⟩ | ⟨m', h3, h4, _⟩
      · rw [h3]; simp
      · rw [h3]; simp
      · rw [hon m' (follows_mem h3)] at h4; cases h4
  have hq : ∀ {m q}, q ∈ (install (fun h ts =>
      helpParse (fmt h).line (fmt h).format info columns ts tree) m).policies →
      (∀ f, q ≠ .helpText f) → q ∈ m.policies := by
    intro m q h1 h2
    rcases mem_install_policies h1 with h | ⟨-, h⟩
    · exact h
    · exact absurd h (h2 _)
  refine ⟨?_, ?_, ?_, ?_, ?_, ?_, fun n hn f h ts => ⟨(hf n hn f h ts).1, (hf n hn f h ts).2.1⟩, ?_⟩
  · intro n hn s h
    obtain ⟨m, hm, rfl⟩ := mem_install.1 hn
    refine hcare.names m hm s ?_
    rcases h with h | h | h
    · exact .inl (hq h (by simp))
    · exact .inr (.inl (hq h (by simp)))
    · exact .inr (.inr (hq h (by simp)))
  · intro n hn s h
    obtain ⟨m, hm, rfl⟩ := mem_install.1 hn
    exact hcare.separators m hm s (hq h (by simp))
  · intro n hn h
    obtain ⟨m, hm, rfl⟩ := mem_install.1 hn
    rw [install_kind]
    exact hcare.expanders m hm (hq h (by simp))
  · intro n hn h
    obtain ⟨m, hm, rfl⟩ := mem_install.1 hn
    have := hcare.parsers m hm (by unfold TakesValues at *; rwa [install_kind] at h)
    cases m
    exact this
  · intro n hn f h
    obtain ⟨m, hm, rfl⟩ := mem_install.1 hn
    exact hcare.customParsers m hm f (hq h (by simp))
  · intro n hn t f h
    obtain ⟨m, hm, rfl⟩ := mem_install.1 hn
    exact hcare.validation m hm t f (hq h (by simp))
  · intro n hn
    refine ⟨?_, ?_, ?_, fun f h ts => (hf n hn f h ts).2.2⟩
    · obtain ⟨m, hm, rfl⟩ := mem_install.1 hn
      have := (hcare.ends m hm).1
      cases m
      exact this
    · intro f h
      obtain ⟨m, hm, rfl⟩ := mem_install.1 hn
      exact (hcare.ends m hm).2.1 f (hq h (by simp))
    · intro t f h
      obtain ⟨m, hm, rfl⟩ := mem_install.1 hn
      exact (hcare.ends m hm).2.2.1 t f (hq h (by simp))

theorem expands_program {fmt : Node → Formatter} {info : HelpInfo} {columns : Nat} {tree : Node}
    (h : Expands (program fmt info columns tree)) : Expands tree := by
  obtain ⟨n, hn, he⟩ := h
  obtain ⟨m, hm, rfl⟩ := mem_install.1 hn
  rw [install_policies] at he
  split at he
  · exact ⟨m, hm, by simpa using he⟩
  · exact ⟨m, hm, he⟩

/-- C80 for programs with help: asking for help is no exception. Whatever text the command line
consists of (the last argument not being just the short prefix, if some flag has a short name), the program returns, or throws a
`parse_exception` with the documented message of the error found. -/
theorem C80_help_partial {fmt : Node → Formatter} {info : HelpInfo} {columns depth : Nat} {tree : Node}
    (hcfg : AsciiPrefixes info.cfg)
    (hc : compiles info.cfg depth defaultRules (program fmt info columns tree) = true)
    (hcare : Careful tree) (hfmt : ∀ n ∈ tree.nodes, ∀ f, .helpText f ∉ n.policies)
    (hhelp : ∀ h ∈ tree.nodes, h.kind = .help →
      LibraryLines (fmt h) ∧ Helpful (fmt h).format info tree)
    (hon : ∀ n ∈ tree.nodes, SwitchedOff n = false)
    (hcol : columns < 2 ^ 64)
    (args : List Bytes) (hargs : ∀ a ∈ args, Text a)
    (hlast : Expands tree → args.getLast? ≠ some info.cfg.shortPrefix) (s : St) :
    (∃ s', rootSeen info.cfg defaultTranslations [] (program fmt info columns tree) args s =
      (.returned, s')) ∨
    ∃ e s', parseArgs info.cfg (program fmt info columns tree) args s = (.throw e, s') ∧
      rootSeen info.cfg defaultTranslations [] (program fmt info columns tree) args s =
        (.parseException (errorText info.cfg (english e.ec) e.tokens), s') :=
  C80_compiled_partial hcfg hc (program_careful hc hcare hfmt hhelp hon hcol) args hargs
    (fun he => hlast (expands_program he)) s

/-! ## C84 -/

/-- C84: a command line that has nothing but a name of the first help node in root shows the text that
`root.help()` returns. -/
theorem C84_same (fmt : Node → Formatter) (info : HelpInfo) (columns : Nat) (tree h : Node)
    (hroot : tree.kind = .root) (hon : SwitchedOff tree = false)
    (before after : List Node) (htree : tree.children = before ++ h :: after)
    (hfirst : ∀ c ∈ before, c.kind ≠ .help) (hk : h.kind = .help)
    (hcount : MatchPolicies h [.minMaxCount 0 sizeMax]) (label : Bytes)
    (hlabel : Spelled info.cfg h label) (s s1 : St)
    (hdec : Declined info.cfg (program fmt info columns tree) [⟨.none, label⟩]
      ((program fmt info columns tree).children.take before.length) s s1) :
    parseArgs info.cfg (program fmt info columns tree) [label] s =
      shown h s1 (rootHelp fmt info columns tree) := by
  rw [C83_exact fmt info columns tree h before after htree hk hcount label hlabel [] (by simp) s s1 hdec]
  have hfind : tree.children.find? (fun c => c.kind == .help) = some h := by
    rw [htree, List.find?_append, List.find?_eq_none.2 (by simpa using hfirst)]
    simp [hk]
  unfold rootHelp helpParse
  rw [hfind, List.map_nil, findHelpTarget,
    if_neg (by unfold SwitchedOff at hon; rw [hon]; simp)]
  simp only [Out.ok_bind, hroot, bne_self_eq_false, Bool.or_false]

/-- C84: without a help node in root, `root.help()` returns nothing. -/
theorem C84_none (fmt : Node → Formatter) (info : HelpInfo) (columns : Nat) (tree : Node)
    (h : ∀ c ∈ tree.children, c.kind ≠ .help) : rootHelp fmt info columns tree = .ok [] := by
  unfold rootHelp
  rw [List.find?_eq_none.2 (by simpa using h)]

/-! ## Examples -/

namespace AskHelpEx

def word : ValueType := ⟨false, .one (.str []), fun s => .ok (.str s)⟩
/-- A mode `run` with an argument and a flag, and after it a help node. -/
def ask : Node := mkHelp 2 2 [.longName (b "help"), .shortName (b "h"), .description (b "Show this text")]
def level : Node := mkArg 5 5 word [.longName (b "level"), .description (b "How much"),
  .defaultValue (.one (.str []))]
def run (hidden : List Policy) : Node := mkMode 3 3 [.router, .noneName (b "run"), .description (b "Runs")]
  [mkFlag .default 4 4 ([.longName (b "force"), .description (b "Do it")] ++ hidden), level]
def tree : Node := mkRoot 1 1 [run [], ask]
/-- The same, with the flag switched off. -/
def offTree : Node := mkRoot 1 1 [run [.runtimeEnable false], ask]
def info : HelpInfo := ⟨.default, fun _ => none⟩
def formats : Node → Formatter := fun _ => ⟨formatRow, ⟨4, 8, some (b "prog"), none, none, none, false⟩⟩

theorem tree_nodes {n : Node} (h : n ∈ tree.nodes) :
    n = tree ∨ n = run [] ∨ n = mkFlag .default 4 4 [.longName (b "force"), .description (b "Do it")] ∨
      n = level ∨ n = ask := by
  have : tree.nodes = [tree, run [],
    mkFlag .default 4 4 [.longName (b "force"), .description (b "Do it")], level, ask] := rfl
  rw [this] at h
  simpa using h

end AskHelpEx

open AskHelpEx

/-- The program compiles. Its help, the help of a mode, the help of an argument, and a name that is
unknown. -/
example : compiles .default 100 defaultRules (program formats info 80 tree) = true ∧
    parseArgs .default (program formats info 80 tree) [b "--help"] .fresh = (.ok (), { St.fresh with
      calls := [⟨2, [.one (.str (b ("prog\n\n    run          Runs\n" ++
        "    --help,-h    Show this text\n")))]⟩] }) ∧
    parseArgs .default (program formats info 80 tree) [b "-h", b "run"] .fresh = (.ok (), { St.fresh with
      calls := [⟨2, [.one (.str (b ("prog\n\nrun                    Runs\n    --force            Do it\n" ++
        "    --level <Value>    How much\n")))]⟩] }) ∧
    parseArgs .default (program formats info 80 tree) [b "--help", b "run", b "--level"] .fresh =
      (.ok (), { St.fresh with
        calls := [⟨2, [.one (.str (b "prog\n\n--level <Value>    How much\n"))]⟩] }) ∧
    parseArgs .default (program formats info 80 tree) [b "--help", b "walk"] .fresh =
      (.throw ⟨.unknown_argument, [⟨.none, b "walk"⟩]⟩, .fresh) ∧
    rootHelp formats info 80 tree = .ok (b ("prog\n\n    run          Runs\n" ++
        "    --help,-h    Show this text\n")) := by
  decide +kernel

/-- C83 is false: in a program that compiles, asking for the help of an argument that is switched off
is undefined behaviour. -/
theorem C83_false : compiles .default 100 defaultRules (program formats info 80 offTree) = true ∧
    (parseArgs .default (program formats info 80 offTree) [b "--help", b "run", b "--force"] .fresh).1 =
      .ub := by
  decide +kernel

theorem tree_helpful (n : Node) : Helpful (formats n).format info tree := by
  show Helpful ⟨4, 8, some (b "prog"), none, none, none, false⟩ info tree
  refine ⟨?_, ?_, ?_, by decide⟩
  · have h : ∀ n ∈ tree.nodes, n.shortName ∈ [none, some (b "h")] := by decide +kernel
    intro n hn s hs
    have := h n hn
    rw [hs] at this
    simp only [List.mem_cons, reduceCtorEq, Option.some.injEq, List.not_mem_nil, or_false,
      false_or] at this
    subst this
    decide +kernel
  · have h : ∀ n ∈ tree.nodes, (n.helpDescription.all fun x => decide (x.toNat < 0x80)) = true := by
      decide +kernel
    exact fun n hn => text_ascii (h n hn)
  · have h : ∀ n ∈ tree.nodes, ∀ fl, ((staticHelp info fl n).flat 0).all (fun r =>
        match terminalWidth r.2.1 with
        | .ok w => decide (r.1 * 4 + w + 4 < 2 ^ 31)
        | _ => false) = true := by decide +kernel
    intro n hn fl row hrow
    have := List.all_eq_true.1 (h n hn fl) row hrow
    split at this
    · rename_i w hw
      exact ⟨w, hw, by simpa using this⟩
    · simp at this

theorem tree_careful : Careful tree := by
  refine ⟨?_, ?_, ?_, ?_, ?_, ?_, ?_, ?_⟩
  · intro n hn s h
    apply text_ascii
    rcases tree_nodes hn with rfl | rfl | rfl | rfl | rfl <;>
      simp [tree, run, level, ask, mkHelp, mkRoot, mkMode, modePolicies, mkFlag, mkArg, expanderIf,
        Config.default, Node.policies] at h <;>
      (try rcases h with h | h) <;> (try subst h) <;> decide +kernel
  · intro n hn s h
    rcases tree_nodes hn with rfl | rfl | rfl | rfl | rfl <;>
      simp [tree, run, level, ask, mkHelp, mkRoot, mkMode, modePolicies, mkFlag, mkArg, expanderIf,
        Config.default, Node.policies] at h
  · intro n hn h
    rcases tree_nodes hn with rfl | rfl | rfl | rfl | rfl <;>
      simp [tree, run, level, ask, mkHelp, mkRoot, mkMode, modePolicies, mkFlag, mkArg, expanderIf,
        Config.default, Node.policies] at h
  · intro n hn h
    rcases tree_nodes hn with rfl | rfl | rfl | rfl | rfl
    case inr.inr.inr.inl => intro s; simp [level, mkArg, word, Node.vt]
    all_goals cases h
  · intro n hn f h
    rcases tree_nodes hn with rfl | rfl | rfl | rfl | rfl <;>
      simp [tree, run, level, ask, mkHelp, mkRoot, mkMode, modePolicies, mkFlag, mkArg, expanderIf,
        Config.default, Node.policies] at h
  · intro n hn t f h
    rcases tree_nodes hn with rfl | rfl | rfl | rfl | rfl <;>
      simp [tree, run, level, ask, mkHelp, mkRoot, mkMode, modePolicies, mkFlag, mkArg, expanderIf,
        Config.default, Node.policies] at h
  · intro n hn f h
    rcases tree_nodes hn with rfl | rfl | rfl | rfl | rfl <;>
      simp [tree, run, level, ask, mkHelp, mkRoot, mkMode, modePolicies, mkFlag, mkArg, expanderIf,
        Config.default, Node.policies] at h
  · intro n hn
    rcases tree_nodes hn with rfl | rfl | rfl | rfl | rfl <;>
      simp [tree, run, level, ask, mkHelp, mkRoot, mkMode, modePolicies, mkFlag, mkArg, expanderIf,
        Config.default, Node.policies, Node.vt, boolType, word]

/-- The hypotheses of `C83_partial`, `C80_help_partial` and `C84_same` are met by this program: the mode
before the help node does not take the command line. -/
example : Careful tree ∧ (∀ n ∈ tree.nodes, SwitchedOff n = false) ∧ (∀ n ∈ tree.nodes, ∀ f, .helpText f ∉ n.policies) ∧
    tree.children = [run []] ++ ask :: [] ∧ MatchPolicies ask [.minMaxCount 0 sizeMax] ∧
    Spelled .default ask (b "--help") ∧
    Declined .default (program formats info 80 tree)
      ([b "--help", b "run"].map (Token.mk .none))
      ((program formats info 80 tree).children.take 1) .fresh .fresh := by
  refine ⟨tree_careful, by decide +kernel, ?_, rfl, ?_, ?_, .cons (s1 := .fresh) (by rfl) (.nil _)⟩
  · intro n hn f h
    rcases tree_nodes hn with rfl | rfl | rfl | rfl | rfl <;>
      simp [tree, run, level, ask, mkHelp, mkRoot, mkMode, modePolicies, mkFlag, mkArg, expanderIf,
        Config.default, Node.policies] at h
  · exact .refl _
  · exact .inl ⟨b "help", rfl, by decide +kernel⟩

end Props

end ArgRouter

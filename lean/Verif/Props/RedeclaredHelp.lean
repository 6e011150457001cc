import Verif.Props.RedeclaredCompile

/-!
# C109 – the help of a program whose policies are declared in another order
-/

namespace ArgRouter

namespace Props

open Spec

variable {σ : Nat → Nat} {n n' : Node}

theorem Spec.Alike.findAny {β : Type} (h : Alike AnyOrder σ n n') {f : Policy → Option β}
    (hk : ∀ x y, (f x).isSome → (f y).isSome → x.kindNo = y.kindNo) :
    n'.policies.findSome? f = n.policies.findSome? f :=
  (findSome_perm _ h.policies.same fun x hx y hy h1 h2 =>
    kind_inj h.policies.once hx hy (hk x y h1 h2)).symm

theorem descriptionText_same (h : Alike AnyOrder σ n n') : n'.descriptionText = n.descriptionText := by
  refine Spec.Alike.findAny h fun x y h1 h2 => ?_
  cases x <;> simp at h1 <;> cases y <;> simp at h2 <;> rfl

theorem separator_same (h : Alike AnyOrder σ n n') : n'.separator = n.separator := by
  refine Spec.Alike.findAny h fun x y h1 h2 => ?_
  cases x <;> simp at h1 <;> cases y <;> simp at h2 <;> rfl

theorem helpDescription_same (h : Alike AnyOrder σ n n') : n'.helpDescription = n.helpDescription := by
  unfold Node.helpDescription
  rw [h.kind, descriptionText_same h]

theorem helpShown_same (h : Alike AnyOrder σ n n') : n'.helpShown = n.helpShown := by
  unfold Node.helpShown
  rw [h.runtimeEnabled]

section

variable {info : HelpInfo} (hrange : ∀ n n', Alike AnyOrder σ n n' → info.range n' = info.range n)
include hrange

theorem helpLabel_same (h : Alike AnyOrder σ n n') : n'.helpLabel info = n.helpLabel info := by
  unfold Node.helpLabel Node.labelGenerator Node.valueSeparatorSuffix Node.countSuffix Node.valueSuffix
  rw [h.kind, h.isAnonymous, separator_same h, hrange n n' h, ← h.facts.long, ← h.facts.short,
    ← h.facts.none, ← h.facts.display, ← h.facts.count]

mutual
theorem staticHelp_same (flatten : Bool) : ∀ (n : Node) {n' : Node}, Alike AnyOrder σ n n' →
    staticHelp info flatten n' = staticHelp info flatten n
  | .mk k u h v p cs, n', hr => by
    have h1 := helpLabel_same hrange hr
    have h2 := helpDescription_same hr
    have h3 := hr.isAnonymous
    cases hr with
    | mk hp hc =>
      cases k <;> simp only [staticHelp, h1, h2, h3, staticHelps_same flatten cs hc]
theorem staticHelps_same (flatten : Bool) : ∀ (cs : List Node) {ds : List Node},
    AlikeAll AnyOrder σ cs ds → staticHelps info flatten ds = staticHelps info flatten cs
  | [], ds, hr => by cases hr; rfl
  | c :: cs, ds, hr => by
    cases hr with
    | cons h1 h2 => rw [staticHelps, staticHelps, staticHelp_same flatten c h1,
      staticHelps_same flatten cs h2]
end

mutual
theorem runtimeRows_same (flatten : Bool) : ∀ (n : Node) {n' : Node}, Alike AnyOrder σ n n' →
    runtimeRows info flatten n' = runtimeRows info flatten n
  | .mk k u h v p cs, n', hr => by
    have h3 := hr.isAnonymous
    cases hr with
    | mk hp hc =>
      cases k <;> simp only [runtimeRows, h3, defaultRows_same flatten cs hc, defaultRows_same true cs hc]
theorem defaultRows_same (flatten : Bool) : ∀ (cs : List Node) {ds : List Node},
    AlikeAll AnyOrder σ cs ds → defaultRows info flatten ds = defaultRows info flatten cs
  | [], ds, hr => by cases hr; rfl
  | c :: cs, ds, hr => by
    cases hr with
    | cons h1 h2 =>
      rw [defaultRows, defaultRows, helpShown_same h1, helpLabel_same hrange h1, helpDescription_same h1,
        runtimeRows_same flatten c h1, defaultRows_same flatten cs h2]
end

theorem generateHelp_same (line : Nat → Nat → Nat → Nat × Bytes × Bytes → Out Bytes) (f : HelpFormat)
    (columns : Nat) (flatten : Bool) (h : Alike AnyOrder σ n n') :
    generateHelp line f info columns flatten n' = generateHelp line f info columns flatten n := by
  unfold generateHelp runtimeHelp
  rw [staticHelp_same hrange flatten n h, helpLabel_same hrange h, helpDescription_same h,
    runtimeRows_same hrange flatten n h]

omit hrange in
theorem findHelpTarget_rel (cfg : Config) (ts : List Token) {n n' : Node} (h : Alike AnyOrder σ n n') :
    RelOut (Alike AnyOrder σ) (findHelpTarget cfg ts n) (findHelpTarget cfg ts n') := by
  induction ts generalizing n n' with
  | nil =>
    rw [findHelpTarget, findHelpTarget, h.runtimeEnabled]
    split
    · trivial
    · exact h
  | cons t ts ih =>
    rw [findHelpTarget, findHelpTarget, h.runtimeEnabled]
    split
    · rfl
    · have hz := zip_find (f := fun c : Node => c.matchToken (c.getToken cfg t.name))
        (g := fun c : Node => c.matchToken (c.getToken cfg t.name))
        (fun a b (h : Alike AnyOrder σ a b) => by rw [h.facts.matchToken, h.facts.getToken]) h.children
      revert hz
      cases n.children.find? (fun c => c.matchToken (c.getToken cfg t.name)) <;>
        cases n'.children.find? (fun c => c.matchToken (c.getToken cfg t.name)) <;> intro hz
      · rfl
      · cases hz
      · cases hz
      · cases hz with
        | some hz => exact ih hz

theorem helpParse_same (line : Nat → Nat → Nat → Nat × Bytes × Bytes → Out Bytes) (f : HelpFormat)
    (columns : Nat) (ts : List Token) (h : Alike AnyOrder σ n n') :
    helpParse line f info columns ts n' = helpParse line f info columns ts n := by
  unfold helpParse
  refine (RelOut.eq (RelOut.bind (findHelpTarget_rel info.cfg ts h) fun a b hab => ?_)).symm
  rw [hab.kind, generateHelp_same hrange line f columns _ hab]
  exact RelOut.refl (fun _ => rfl) _

end

theorem shuffled_cons {x : Policy} {p q : List Policy} (h : Shuffled p q) : Shuffled (x :: p) (x :: q) := by
  refine ⟨h.same.cons x, ?_⟩
  rw [List.filter_cons, List.filter_cons, h.checks]

mutual
theorem install_shuffled {g g' : Node → List Token → Out Bytes} (top : Node)
    (hg : ∀ n ∈ top.nodes, ∀ n', Alike Shuffled σ n n' → n.kind = .help → g' n' = g n) :
    ∀ (n : Node) {n' : Node}, (∀ x ∈ n.nodes, x ∈ top.nodes) → Alike Shuffled σ n n' →
      Alike Shuffled σ (install g n) (install g' n')
  | .mk k u h v p cs, n', hn, hr => by
    have hh := hg _ (hn _ (self_mem_nodes _)) n' hr
    cases hr with
    | mk hp hc =>
      rw [install, install]
      refine .mk ?_ (installs_shuffled top hg cs (fun c hc x hx => hn x (child_mem_nodes hc x hx)) hc)
      split
      · next hk => rw [hh hk]; exact shuffled_cons hp
      · exact hp
theorem installs_shuffled {g g' : Node → List Token → Out Bytes} (top : Node)
    (hg : ∀ n ∈ top.nodes, ∀ n', Alike Shuffled σ n n' → n.kind = .help → g' n' = g n) :
    ∀ (cs : List Node) {ds : List Node}, (∀ c ∈ cs, ∀ x ∈ c.nodes, x ∈ top.nodes) →
      AlikeAll Shuffled σ cs ds → AlikeAll Shuffled σ (installs g cs) (installs g' ds)
  | [], ds, _, hr => by cases hr; exact .nil
  | c :: cs, ds, hn, hr => by
    cases hr with
    | cons h1 h2 =>
      exact .cons (install_shuffled top hg c (hn c List.mem_cons_self) h1)
        (installs_shuffled top hg cs (fun d hd => hn d (List.mem_cons_of_mem _ hd)) h2)
end

theorem install_mem {g : Node → List Token → Out Bytes} {x top : Node} (h : x ∈ top.nodes) :
    install g x ∈ (install g top).nodes := by
  obtain ⟨p, hp⟩ := mem_nodes.1 h
  refine mem_nodes.2 ⟨p, ?_⟩
  induction p generalizing top with
  | nil =>
    rw [nodeAt] at hp ⊢
    cases hp
    rfl
  | cons i p ih =>
    simp only [nodeAt, install_children, List.getElem?_map] at hp ⊢
    cases hc : top.children[i]? with
    | none => rw [hc] at hp; cases hp
    | some c =>
      rw [hc] at hp
      exact ih (mem_nodes.2 ⟨p, hp⟩) hp

/-- C109 with the help: take a program that compiles, whose help nodes have any formatters, and shuffle the
policies of its nodes (the ranges and formatters of nodes do not depend on the order of their policies). It
still compiles, `root.help()` returns the same text, and on every command line, also one that asks for help,
it does what it did. -/
theorem C109_help (hσ : ∀ a b, σ a = σ b → a = b) (fmt : Node → Formatter) (info : HelpInfo)
    (columns : Nat) (tree tree' : Node)
    (hrange : ∀ n n', Alike AnyOrder σ n n' → info.range n' = info.range n)
    (hfmt : ∀ n n', Alike AnyOrder σ n n' → fmt n' = fmt n)
    (hc : ∃ depth, compiles info.cfg depth defaultRules (program fmt info columns tree) = true)
    (hs : ∀ n ∈ (program fmt info columns tree).nodes, ∀ e e' v, .runtimeEnable e ∈ n.policies →
      .runtimeEnableRequired e' v ∉ n.policies)
    (h : Alike Shuffled σ tree tree') :
    (∃ depth, compiles info.cfg depth defaultRules (program fmt info columns tree') = true) ∧
    rootHelp fmt info columns tree' = rootHelp fmt info columns tree ∧
    ∀ args s s', SamePast σ s s' →
      (parseArgs info.cfg (program fmt info columns tree') args s').1 =
        (parseArgs info.cfg (program fmt info columns tree) args s).1 ∧
      (parseArgs info.cfg (program fmt info columns tree') args s').2.calls =
        (parseArgs info.cfg (program fmt info columns tree) args s).2.calls ∧
      SamePast σ (parseArgs info.cfg (program fmt info columns tree) args s).2
        (parseArgs info.cfg (program fmt info columns tree') args s').2 := by
  have hon : ∀ x ∈ tree.nodes, (x.policies.map Policy.kindNo).Nodup := by
    intro x hx
    have hm : install (fun h ts => helpParse (fmt h).line (fmt h).format info columns ts tree) x ∈
        (program fmt info columns tree).nodes := install_mem hx
    have hd := compiled_once hc hm (hs _ hm)
    rw [install_policies] at hd
    split at hd
    · exact (List.nodup_cons.1 hd).2
    · exact hd
  have hany : ∀ n ∈ tree.nodes, ∀ n', Alike Shuffled σ n n' → Alike AnyOrder σ n n' := fun n hn n' h =>
    alike_of (Q := fun p => (p.map Policy.kindNo).Nodup) (fun p q hQ hP => ⟨hQ, hP.same⟩) n
      (fun x hx => hon x (nodes_trans _ _ hn _ hx)) h
  have hall := hany tree (self_mem_nodes _) tree' h
  have hp : Alike Shuffled σ (program fmt info columns tree) (program fmt info columns tree') := by
    refine install_shuffled tree ?_ tree (fun _ hx => hx) h
    intro n hn n' hr _
    funext ts
    rw [hfmt n n' (hany n hn n' hr), helpParse_same hrange _ _ _ _ hall]
  obtain ⟨h1, h2⟩ := C109_compiled hσ info.cfg _ _ hc hs hp
  refine ⟨h1, ?_, h2⟩
  unfold rootHelp
  have hz := zip_find (f := fun c : Node => c.kind == .help) (g := fun c : Node => c.kind == .help)
    (fun a b (h : Alike AnyOrder σ a b) => by rw [h.kind]) hall.children
  revert hz
  cases tree.children.find? (fun c => c.kind == .help) <;>
    cases tree'.children.find? (fun c => c.kind == .help) <;> intro hz
  · rfl
  · cases hz
  · cases hz
  · next a c =>
    obtain hz : Alike AnyOrder σ a c := by cases hz; assumption
    show generateHelp (fmt c).line _ _ _ _ _ = _
    rw [hfmt a c hz]
    exact generateHelp_same hrange _ _ _ _ hall

/-- The hypotheses are met by the program basic_cat with the policies of every node turned round. -/
example : ∃ (fmt : Node → Formatter) (info : HelpInfo),
    (∀ n n', Alike AnyOrder (· + 100) n n' → info.range n' = info.range n) ∧
    (∀ n n', Alike AnyOrder (· + 100) n n' → fmt n' = fmt n) ∧
    (∃ depth, compiles info.cfg depth defaultRules (program fmt info 80 Examples.basicCat) = true) ∧
    (∀ n ∈ (program fmt info 80 Examples.basicCat).nodes, ∀ e e' v, .runtimeEnable e ∈ n.policies →
      .runtimeEnableRequired e' v ∉ n.policies) ∧
    Alike Shuffled (· + 100) Examples.basicCat (turnedRound Examples.basicCat) := by
  refine ⟨fun _ => Examples.basicCatFormat, exInfo, fun _ _ _ => rfl, fun _ _ _ => rfl,
    ⟨100, C87_compiles (Examples.basicCatFormat, Examples.basicCat) (by simp [examplePrograms]) 80⟩, ?_,
    alike_turned _⟩
  intro n hn e e' v h1 h2
  have : (exProgram Examples.basicCatFormat 80 Examples.basicCat).nodes.all
      (fun n => !n.has .runtimeEnable) = true := by decide +kernel
  have := List.all_eq_true.1 this n hn
  have hm := has_of_mem (n := n) (q := .runtimeEnable e) h1
  simp only [Policy.kind] at hm
  rw [hm] at this
  cases this

end Props

end ArgRouter

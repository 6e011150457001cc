import Verif.Props.CompiledCalls
import Verif.Props.Findings
import Verif.Props.Linked

/-!
# C68, C11: what an anonymous mode hides, and what an alias brings back
-/

namespace ArgRouter.Props

open Spec

theorem declined_at {cfg : Config} {root : Node} {args : List Token} {cs : List Node} {s s' : St}
    (h : Declined cfg root args cs s s') : ∀ {i : Nat} {m : Node}, cs[i]? = some m →
      ∃ s0 s1, offerTo cfg root args m s0 = (.ok none, s1) := by
  induction h with
  | nil s => intro i m hm; simp at hm
  | @cons c cs s s1 s2 h1 _ ih =>
    intro i m hm
    cases i with
    | zero =>
      simp only [List.getElem?_cons_zero, Option.some.injEq] at hm
      subst hm
      exact ⟨_, _, h1⟩
    | succ i => exact ih (by simpa using hm)

/-- The child of root that handled a command line makes the only calls, and they are of nodes in it. -/
theorem child_calls {cfg : Config} {root c : Node} {args : List Token} {t : Target} {s0 s1 s' : St}
    (hr : RoutersOnTop root)
    (hflat : ∀ c ∈ root.children, c.kind ≠ .mode → ∀ x ∈ c.nodes, x.kind ≠ .mode)
    (hc : c ∈ root.children) (hoff : offerTo cfg root args c s0 = (.ok (some (t, [])), s1))
    (hrun : runTarget t s1 = (.ok (), s')) :
    ∃ calls, s'.calls = s1.calls ++ calls ∧ ∀ call ∈ calls, ∃ x ∈ c.nodes, call.node = x.uid := by
  by_cases hk : c.kind = .mode
  · obtain ⟨htk, hsil⟩ := subs_silent hr hc hk hoff
    unfold offerTo at hoff
    rw [if_pos (by simp [hk])] at hoff
    obtain ⟨e1, -⟩ := preParseMode_reached _ _ _ _ _ _ _ _ _ hk hoff
    unfold runTarget at hrun
    rw [if_pos (by simp [htk])] at hrun
    have reach : ∀ {a n : Node}, Reached a n → n ∈ a.nodes := by
      intro a n hr
      induction hr with
      | here _ h => exact self_mem_nodes _
      | inside _ _ hc _ ih => exact child_mem_nodes hc _ ih
    obtain ⟨-, vals, g1, -, -⟩ := parseMode_args hrun
    rcases oneCall_parseMode t.node t.subs hsil s1 with ⟨a, s2, call, e3, e4⟩ | ⟨e3, -⟩
    · rw [hrun] at e3
      simp only [Prod.mk.injEq] at e3
      obtain ⟨-, rfl⟩ := e3
      refine ⟨[call], e4, fun x hx => ⟨t.node, reach e1, ?_⟩⟩
      rw [List.mem_singleton] at hx
      subst hx
      rw [RoutedWith, e4] at g1
      simp only [List.getLast?_append, List.getLast?_singleton, Option.some_or, Option.some.injEq] at g1
      rw [g1]
    · rw [hrun] at e3
      exact absurd rfl (e3 ())
  · unfold offerTo at hoff
    rw [if_neg (by simp [hk])] at hoff
    obtain ⟨m, hm, -, ⟨v, s2, s3, hlf⟩, -⟩ := match_leaf _ _ _ _ hoff
    have hn : t.node = m := (leafPreParse_node hlf).1
    have hmk : t.node.kind ≠ .mode := by rw [hn]; exact hflat c hc hk m hm
    unfold runTarget at hrun
    rw [if_neg (by simp [hmk]), M.bind_eq_ok] at hrun
    obtain ⟨o, s4, h1, h2⟩ := hrun
    simp only [M.pure_apply, Prod.mk.injEq] at h2
    obtain ⟨-, rfl⟩ := h2
    rw [parseLeaf_apply] at h1
    cases hv : leafValue ⟨t.node, t.tokens⟩ with
    | ok v =>
      rw [hv] at h1
      simp only [Prod.mk.injEq] at h1
      obtain ⟨-, rfl⟩ := h1
      refine ⟨leafCalls ⟨t.node, t.tokens⟩ v, rfl, fun call hcall => ⟨t.node, by rw [hn]; exact hm, ?_⟩⟩
      simp only [leafCalls] at hcall
      repeat' split at hcall
      all_goals simp_all
    | throw e => rw [hv] at h1; cases h1
    | foreign => rw [hv] at h1; cases h1
    | ub => rw [hv] at h1; cases h1
    | diverge => rw [hv] at h1; cases h1

/-- C68, what becomes of the modes after an anonymous one (`C68_false`): in every program that compiles,
every call that a parse makes is of a node in a child of root that is the anonymous mode or comes before
it. So nothing after it is ever used, whatever the command line. -/
theorem C68_shadowed (cfg : Config) (root m : Node) (i : Nat) (argv : List Bytes) (s s' : St)
    (hc : ∃ depth, compiles cfg depth defaultRules root = true)
    (hm : root.children[i]? = some m) (hk : m.kind = .mode) (hn : m.noneName = none)
    (h : parseArgs cfg root argv s = (.ok (), s')) :
    ∃ (k : Nat) (c : Node) (calls : List Call), k ≤ i ∧ root.children[k]? = some c ∧
      s'.calls = s.calls ++ calls ∧ ∀ call ∈ calls, ∃ x ∈ c.nodes, call.node = x.uid := by
  obtain ⟨before, c, after, t, s1, s2, hroot, hdec, hoff, hrun⟩ := C28_success cfg root argv s s' h
  have hcr : c ∈ root.children := by rw [hroot]; simp
  obtain ⟨calls, h1, h2⟩ := child_calls (compiles_routers hc) (compiles_flat hc) hcr hoff hrun
  refine ⟨before.length, c, calls, ?_, by rw [hroot]; simp, ?_, h2⟩
  · refine Nat.le_of_not_lt fun hlt => ?_
    rw [hroot, List.getElem?_append_left hlt] at hm
    obtain ⟨u0, u1, hu⟩ := declined_at hdec hm
    have hbody : offerTo cfg root (argv.map (Token.mk .none)) m =
        modeBody cfg m [root] alwaysTrue (argv.map (Token.mk .none)) := by
      rw [offerTo, if_pos (by simp [hk])]
      obtain ⟨k, u, hh, v, p, cs⟩ := m
      rw [preParseMode]
      simp only [Node.isAnonymous, hn, Option.isNone_none, if_true]
    rw [hbody] at hu
    exact modeBody_some u1 hu
  · have hq := quiet_offerTo cfg root (argv.map (Token.mk .none)) c s1
    rw [hoff] at hq
    rw [h1, hq, declined_quiet hdec]

/-- The program of `C68_compiled_false`: the anonymous mode is called for `--aa`, the mode behind it, whose
router is node 12, is there and cannot be called. -/
example : let root := mkRoot 1 1 [mkMode 2 2 [.router] [Found.aa], Found.run]
    compiles .default 100 defaultRules root = true ∧
    (root.children.map fun c => (c.kind, c.noneName)) = [(.mode, none), (.mode, some (b "run"))] ∧
    (parseArgs .default root [b "--aa"] .fresh).1 = .ok () ∧
    ((parseArgs .default root [b "--aa"] .fresh).2.calls.map Call.node) = [2] := by decide +kernel

/-- C11, what happens with an alias (`C11_alias_false`): an alias that is used on the command line hands its
values to every argument of the mode that it stands for, also to those that are switched off. -/
theorem C11_alias_exact (cfg : Config) (n d : Node) (refs : List NameRef) (count : Nat)
    (parents : List Node) (mode : Node) (label : Token) (values rest : List Token)
    (processed : Option Target) (validator : Validator)
    (hp : MatchPolicies n [.minMaxCount count count, .alias refs])
    (hcnt : n.minMaxCount = some (count, count))
    (hmode : InnermostRouting (n :: parents) mode)
    (hn : n.isNamed = true) (hmx : count ≤ sizeMax)
    (hlen : (values ++ rest).length + 1 < 2 ^ 63) (hl : IsLabel cfg n label)
    (hv : values.length = count) (hd : d ∈ mode.nodes) (hr : NamedIn refs d) (_ : Disabled d) :
    ∃ uses : List Leaf, ⟨d, values⟩ ∈ uses ∧
      leafPreParse cfg n parents (label :: (values ++ rest)) processed validator =
        guarded validator n (pure (some (⟨n, [], uses⟩, rest))) := by
  obtain ⟨aliased, h1, h2⟩ := C13_targets cfg n refs count parents mode label values rest processed
    validator hp hcnt hmode hn hmx hlen hl hv
  exact ⟨_, List.mem_map.2 ⟨d, (h1 d).2 ⟨hd, hr⟩, rfl⟩, h2⟩

namespace ShadowEx

/-- An argument for the value of an argument that is switched off. -/
def secret : Node := .mk .arg 1 1 ⟨false, .one (.str []), fun s => .ok (.str s)⟩
  [.minMaxCount 1 1, .longName (b "secret"), .runtimeEnable false] []
def public_ : Node := .mk .arg 2 2 ⟨false, .one (.str []), fun s => .ok (.str s)⟩
  [.minMaxCount 1 1, .longName (b "public"), .alias [.long (b "secret")]] []
def both : Node := .mk .mode 3 3 ⟨false, .one (.str []), fun s => .ok (.str s)⟩
  [.router] [secret, public_]

end ShadowEx

open ShadowEx in
/-- `--public x` hands `x` to `--secret`. -/
example : MatchPolicies public_ [.minMaxCount 1 1, .alias [.long (b "secret")]] ∧
    public_.minMaxCount = some (1, 1) ∧ InnermostRouting [public_, both] both ∧
    public_.isNamed = true ∧ IsLabel .default public_ ⟨.none, b "--public"⟩ ∧
    secret ∈ both.nodes ∧ NamedIn [.long (b "secret")] secret ∧ Disabled secret :=
  ⟨List.Perm.refl _, by decide +kernel,
    ⟨[public_], [], rfl, by decide +kernel, by simp [public_, Node.hasRouter, Node.policies]⟩,
    by decide +kernel, .inl ⟨b "public", by decide +kernel, by decide +kernel⟩,
    by simp [both, nodes_mk, nodesList, secret],
    ⟨.long (b "secret"), by decide +kernel, by decide +kernel⟩,
    ⟨.runtimeEnable false, by simp [secret, Node.policies], rfl⟩⟩

end ArgRouter.Props

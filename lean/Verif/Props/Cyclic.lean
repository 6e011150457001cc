import Verif.Props.Tree
import Verif.Valid.Cyclic

/-!
# C73, C75: the compile-time checks of aliases and dependencies
-/

namespace ArgRouter.Spec

/-- The policy of the kind with these names. -/
def linkPolicy : LinkKind → List NameRef → Policy
  | .alias, refs => .alias refs
  | .dependent, refs => .dependent refs

/-- The node has a policy of the kind with these names, and none of the kind before it. -/
def Names (k : LinkKind) (n : Node) (refs : List NameRef) : Prop :=
  ∃ before after, n.policies = before ++ linkPolicy k refs :: after ∧
    ∀ refs', linkPolicy k refs' ∉ before

/-- The node `n` has a policy of the kind that names the node `m` of the mode. -/
def Leads (k : LinkKind) (mode n m : Node) : Prop :=
  ∃ refs, Names k n refs ∧ IsNodeOf mode m ∧ ∃ r, r ∈ refs ∧ r ∈ m.nameRefs
where
  /-- `m` is somewhere in the tree. -/
  IsNodeOf (mode m : Node) : Prop := ∃ p, nodeAt mode p = some m

/-- Following the policies from `n`, in one step or more, leads to `m`. -/
inductive Chain (k : LinkKind) (mode : Node) : Node → Node → Prop
  | step {n m : Node} : Leads k mode n m → Chain k mode n m
  | cons {n x m : Node} : Leads k mode n x → Chain k mode x m → Chain k mode n m

/-- The names in the policies of the nodes that can be reached from `n` can be resolved. -/
def Resolved (k : LinkKind) (mode n : Node) : Prop :=
  ∀ m refs, m = n ∨ Chain k mode n m → Names k m refs → (linkTargets mode refs).isSome

end ArgRouter.Spec

namespace ArgRouter.Props

open Spec

variable {k : LinkKind} {mode : Node}

theorem links_iff {n : Node} {refs : List NameRef} : n.links k = some refs ↔ Names k n refs := by
  unfold Node.links Names
  generalize n.policies = ps
  induction ps with
  | nil => simp
  | cons p ps ih =>
    rw [List.findSome?_cons]
    by_cases hp : ∃ r, p = linkPolicy k r
    · obtain ⟨r, rfl⟩ := hp
      have e : linkPolicy k r = linkPolicy k refs ↔ r = refs := by cases k <;> simp [linkPolicy]
      have : (∃ before after, linkPolicy k r :: ps = before ++ linkPolicy k refs :: after ∧
          ∀ refs', linkPolicy k refs' ∉ before) ↔ r = refs := by
        constructor
        · rintro ⟨before, after, h1, h2⟩
          cases before with
          | nil => exact e.1 (List.cons.inj h1).1
          | cons q before =>
            exact absurd (by rw [(List.cons.inj h1).1]; simp) (h2 r)
        · rintro rfl; exact ⟨[], ps, rfl, by simp⟩
      rw [this]
      cases k <;> simp [linkPolicy]
    · have : (∃ before after, p :: ps = before ++ linkPolicy k refs :: after ∧
          ∀ refs', linkPolicy k refs' ∉ before) ↔
          ∃ before after, ps = before ++ linkPolicy k refs :: after ∧
            ∀ refs', linkPolicy k refs' ∉ before := by
        constructor
        · rintro ⟨before, after, h1, h2⟩
          cases before with
          | nil => exact absurd ⟨_, (List.cons.inj h1).1⟩ hp
          | cons q before =>
            exact ⟨before, after, (List.cons.inj h1).2, fun r hr => h2 r (List.mem_cons_of_mem _ hr)⟩
        · rintro ⟨before, after, h1, h2⟩
          refine ⟨p :: before, after, by rw [h1]; rfl, fun r hr => ?_⟩
          rcases List.mem_cons.1 hr with h | h
          · exact hp ⟨r, h.symm⟩
          · exact h2 r h
      rw [this, ← ih]
      cases k <;> cases p <;> first | rfl | exact absurd ⟨_, rfl⟩ hp

theorem mem_linkTargets {refs : List NameRef} {ts : List Node}
    (h : linkTargets mode refs = some ts) (m : Node) :
    m ∈ ts ↔ Leads.IsNodeOf mode m ∧ ∃ r, r ∈ refs ∧ r ∈ m.nameRefs := by
  unfold linkTargets at h
  split at h
  · cases h
    rw [C72_collect]
    exact ⟨fun ⟨p, h1, h2⟩ => ⟨⟨p, h1⟩, h2⟩, fun ⟨⟨p, h1⟩, h2⟩ => ⟨p, h1, h2⟩⟩
  · cases h

/-- Resolving the names in an alias or dependency yields, if it succeeds, exactly the nodes of the
mode that carry one of the names, one node for each name, all of different types. -/
theorem C73_targets {refs : List NameRef} {ts : List Node}
    (h : linkTargets mode refs = some ts) :
    (∀ m, m ∈ ts ↔ (∃ p, nodeAt mode p = some m) ∧ ∃ r, r ∈ refs ∧ r ∈ m.nameRefs) ∧
    ts.length = refs.length ∧ (ts.map Node.hash).Nodup := by
  refine ⟨mem_linkTargets h, ?_⟩
  unfold linkTargets at h
  split at h
  · rename_i hc; cases h; exact hc
  · cases h

/-- A path of nodes that starts below `n`. -/
inductive WalkL (k : LinkKind) (mode : Node) : Node → List Node → Prop
  | nil (n : Node) : WalkL k mode n []
  | cons {n x : Node} {l : List Node} : Leads k mode n x → WalkL k mode x l →
      WalkL k mode n (x :: l)

theorem WalkL.append {n x : Node} {l l' : List Node} (h : WalkL k mode n (l ++ [x]))
    (h' : WalkL k mode x l') : WalkL k mode n (l ++ x :: l') := by
  induction l generalizing n with
  | nil =>
    cases h with
    | cons h _ => exact .cons h h'
  | cons y l ih =>
    cases h with
    | cons h h2 => exact .cons h (ih h2)

theorem Chain.walk {n m : Node} (h : Chain k mode n m) :
    ∃ l, WalkL k mode n (l ++ [m]) := by
  induction h with
  | step h => exact ⟨[], .cons h (.nil _)⟩
  | cons h _ ih =>
    obtain ⟨l, hl⟩ := ih
    exact ⟨_ :: l, .cons h hl⟩

theorem Chain.trans {n x m : Node} (h : Chain k mode n x) (h' : Chain k mode x m) :
    Chain k mode n m := by
  induction h with
  | step h => exact .cons h h'
  | cons h _ ih => exact .cons h (ih h')

theorem Chain.long {n : Node} (h : Chain k mode n n) :
    ∀ len, ∃ l, len ≤ l.length ∧ WalkL k mode n l := by
  intro len
  induction len with
  | zero => exact ⟨[], Nat.le_refl _, .nil _⟩
  | succ len ih =>
    obtain ⟨l, hl, hw⟩ := ih
    obtain ⟨c, hc⟩ := Chain.walk h
    exact ⟨c ++ n :: l, by simp; omega, WalkL.append hc hw⟩

theorem WalkL.chain {n : Node} {l : List Node} (h : WalkL k mode n l) :
    ∀ x ∈ l, Chain k mode n x := by
  induction h with
  | nil => intro x hx; simp at hx
  | cons h _ ih =>
    intro x hx
    rcases List.mem_cons.1 hx with rfl | hx
    · exact .step h
    · exact .cons h (ih x hx)

theorem accept_bounds {self : List NameRef} : ∀ (fuel : Nat) (queue : List Node),
    cyclicCheck k mode self fuel queue = .accept →
    ∀ n ∈ queue, ∀ l, WalkL k mode n l → l.length ≤ fuel
  | 0, _, h => by simp [cyclicCheck] at h
  | fuel + 1, [], _ => by simp
  | fuel + 1, n :: rest, h => by
    simp only [cyclicCheck] at h
    cases hl : n.links k with
    | none =>
      simp only [hl] at h
      intro x hx l hw
      rcases List.mem_cons.1 hx with rfl | hx
      · cases hw with
        | nil => simp
        | cons hs _ => obtain ⟨refs, hr, _⟩ := hs; rw [← links_iff, hl] at hr; cases hr
      · have := accept_bounds fuel rest h x hx l hw
        omega
    | some refs =>
      simp only [hl] at h
      split at h
      · cases h
      · cases ht : linkTargets mode refs with
        | none => simp [ht] at h
        | some ts =>
          simp only [ht] at h
          have ih := accept_bounds fuel (rest ++ ts) h
          intro x hx l hw
          rcases List.mem_cons.1 hx with rfl | hx
          · cases hw with
            | nil => simp
            | cons hs hw' =>
              obtain ⟨refs', hr, hm, hn⟩ := hs
              rw [← links_iff, hl, Option.some.injEq] at hr; subst hr
              have := ih _ (List.mem_append_right _ ((mem_linkTargets ht _).2 ⟨hm, hn⟩)) _ hw'
              simp only [List.length_cons]; omega
          · have := ih x (List.mem_append_left _ hx) l hw
            omega

/-- If the check of an alias (or dependency) succeeds, no node that can be reached from its owner
lies on a cycle, and neither does the owner. -/
theorem C73_sound {n : Node} {self : List NameRef} {fuel : Nat} (hn : Names k n self)
    (h : linkCheck fuel k mode self = .accept) :
    ¬ Chain k mode n n ∧ ∀ m, Chain k mode n m → ¬ Chain k mode m m := by
  unfold linkCheck at h
  cases ht : linkTargets mode self with
  | none => simp [ht] at h
  | some ts =>
    simp only [ht] at h
    have hb := accept_bounds fuel ts h
    have key : ∀ m, Chain k mode n m → ¬ Chain k mode m m := by
      intro m hm hc
      obtain ⟨l0, hl0⟩ := Chain.walk hm
      obtain ⟨l1, hlen, hl1⟩ := Chain.long hc (fuel + 1)
      have hw := WalkL.append hl0 hl1
      cases hw' : l0 ++ m :: l1 with
      | nil => simp at hw'
      | cons x l =>
        rw [hw'] at hw
        cases hw with
        | cons hs hw2 =>
          obtain ⟨refs, hr, hx, hxn⟩ := hs
          rw [← links_iff, links_iff.2 hn, Option.some.injEq] at hr; subst hr
          have hle := hb x ((mem_linkTargets ht x).2 ⟨hx, hxn⟩) l hw2
          have := congrArg List.length hw'
          simp only [List.length_append, List.length_cons] at this
          omega
    exact ⟨fun hc => key n hc hc, key⟩

/-- So a cycle is always detected: however far the compiler follows the chain, no alias (or
dependency) that lies on a cycle, or from which a cycle can be reached, passes the check. -/
theorem C73_detected {n m : Node} {self : List NameRef} (hn : Names k n self)
    (hm : m = n ∨ Chain k mode n m) (hc : Chain k mode m m) (fuel : Nat) :
    linkCheck fuel k mode self ≠ .accept := by
  intro h
  obtain ⟨h1, h2⟩ := C73_sound hn h
  rcases hm with rfl | hm
  · exact h1 hc
  · exact h2 m hm hc

/-! ### No false alarms -/

theorem length_le_of_nodup_subset {α} : ∀ (l r : List α), l.Nodup → (∀ x ∈ l, x ∈ r) →
    l.length ≤ r.length
  | [], _, _, _ => by simp
  | a :: l, r, hn, hs => by
    obtain ⟨r1, r2, rfl⟩ := List.append_of_mem (hs a (by simp))
    obtain ⟨ha, hn'⟩ := List.nodup_cons.1 hn
    have := length_le_of_nodup_subset l (r1 ++ r2) hn' (by
      intro x hx
      have h1 := hs x (List.mem_cons_of_mem _ hx)
      have hne : x ≠ a := fun e => ha (e ▸ hx)
      simp only [List.mem_append, List.mem_cons] at h1 ⊢
      rcases h1 with h | h | h
      · exact Or.inl h
      · exact absurd h hne
      · exact Or.inr h)
    simp only [List.length_append, List.length_cons] at this ⊢
    omega

theorem mem_nodes {root m : Node} : m ∈ root.nodes ↔ ∃ p, nodeAt root p = some m := by
  obtain ⟨ps, _, hps, hw⟩ := C72_nodes root
  have hmap : root.nodes.map some = ps.map (nodeAt root) := by
    have := congrArg (List.map Prod.fst) hw
    simpa [Node.nodes, Function.comp_def] using this
  constructor
  · intro h
    have : some m ∈ root.nodes.map some := List.mem_map.2 ⟨m, h, rfl⟩
    rw [hmap] at this
    obtain ⟨p, _, hp⟩ := List.mem_map.1 this
    exact ⟨p, hp⟩
  · rintro ⟨p, hp⟩
    have : some m ∈ ps.map (nodeAt root) := List.mem_map.2 ⟨p, (hps p).2 ⟨m, hp⟩, hp⟩
    rw [← hmap] at this
    obtain ⟨x, hx, e⟩ := List.mem_map.1 this
    cases e; exact hx

theorem walk_bounded {n : Node} {l : List Node} (hno : ∀ m, Chain k mode n m → ¬ Chain k mode m m)
    (h : WalkL k mode n l) : l.length ≤ mode.nodes.length := by
  refine length_le_of_nodup_subset l _ ?_ ?_
  · induction h with
    | nil => exact List.nodup_nil
    | @cons n x l hs hw ih =>
      refine List.nodup_cons.2 ⟨fun hx => ?_, ih fun m hm => hno m (.cons hs hm)⟩
      exact hno x (.step hs) (hw.chain x hx)
  · intro x hx
    clear hno
    induction h with
    | nil => simp at hx
    | cons hs hw ih =>
      rcases List.mem_cons.1 hx with rfl | hx
      · obtain ⟨_, _, hm, _⟩ := hs
        exact mem_nodes.2 hm
      · exact ih hx

/-- The targets of a node. -/
def tg (k : LinkKind) (mode n : Node) : List Node :=
  match n.links k with
  | none => []
  | some refs => (linkTargets mode refs).getD []

def cost (k : LinkKind) (mode : Node) : Nat → Node → Nat
  | 0, _ => 1
  | d + 1, n => 1 + ((tg k mode n).map (cost k mode d)).sum

theorem leads_of_tg {n x : Node} (h : x ∈ tg k mode n) : Leads k mode n x := by
  unfold tg at h
  cases hl : n.links k with
  | none => simp [hl] at h
  | some refs =>
    simp only [hl] at h
    cases ht : linkTargets mode refs with
    | none => simp [ht] at h
    | some ts =>
      simp only [ht, Option.getD_some] at h
      obtain ⟨h1, h2⟩ := (mem_linkTargets ht x).1 h
      exact ⟨refs, links_iff.1 hl, h1, h2⟩

theorem cost_stable : ∀ (d : Nat) (n : Node), (∀ l, WalkL k mode n l → l.length ≤ d) →
    cost k mode d n = cost k mode (d + 1) n
  | 0, n, h => by
    have : tg k mode n = [] := by
      cases ht : tg k mode n with
      | nil => rfl
      | cons x t =>
        have := h [x] (.cons (leads_of_tg (by rw [ht]; simp)) (.nil _))
        simp at this
    simp [cost, this]
  | d + 1, n, h => by
    rw [cost, cost]
    congr 2
    refine List.map_congr_left fun x hx => ?_
    refine cost_stable d x fun l hl => ?_
    have := h (x :: l) (.cons (leads_of_tg hx) hl)
    simpa using this

theorem check_accepts {self : List NameRef} {d : Nat} : ∀ (fuel : Nat) (queue : List Node),
    (∀ n ∈ queue, (∀ l, WalkL k mode n l → l.length ≤ d) ∧
      ∀ m refs, m = n ∨ Chain k mode n m → Names k m refs →
        refs ≠ self ∧ (linkTargets mode refs).isSome) →
    (queue.map (cost k mode d)).sum < fuel → cyclicCheck k mode self fuel queue = .accept
  | 0, _, _, h => by omega
  | fuel + 1, [], _, _ => rfl
  | fuel + 1, n :: rest, hq, hs => by
    simp only [cyclicCheck]
    simp only [List.map_cons, List.sum_cons] at hs
    obtain ⟨hb, hg⟩ := hq n (by simp)
    have hrest := fun x hx => hq x (List.mem_cons_of_mem _ hx)
    cases hl : n.links k with
    | none =>
      simp only
      have h1 : 1 ≤ cost k mode d n := by cases d <;> simp [cost]
      exact check_accepts fuel rest hrest (by omega)
    | some refs =>
      simp only
      obtain ⟨hne, hsome⟩ := hg n refs (Or.inl rfl) (links_iff.1 hl)
      rw [if_neg hne]
      obtain ⟨ts, ht⟩ := Option.isSome_iff_exists.1 hsome
      simp only [ht]
      refine check_accepts (d := d) fuel (rest ++ ts) ?_ ?_
      · intro x hx
        rcases List.mem_append.1 hx with hx | hx
        · exact hrest x hx
        · have hs : Leads k mode n x := by
            obtain ⟨h1, h2⟩ := (mem_linkTargets ht x).1 hx
            exact ⟨refs, links_iff.1 hl, h1, h2⟩
          refine ⟨fun l hw => ?_, fun m refs' hm hr => ?_⟩
          · have := hb (x :: l) (.cons hs hw)
            simp only [List.length_cons] at this; omega
          · refine hg m refs' (Or.inr ?_) hr
            rcases hm with rfl | hm
            · exact .step hs
            · exact .cons hs hm
      · have : cost k mode d n = 1 + (ts.map (cost k mode d)).sum := by
          rw [cost_stable d n hb, cost]
          simp [tg, hl, ht]
        rw [List.map_append, List.sum_append]
        omega

/-- There are no false alarms: if the names can be resolved and no cycle can be reached from the owner
of an alias (or dependency), then the check succeeds. -/
theorem C73_complete {n : Node} {self : List NameRef} (hn : Names k n self)
    (hres : Resolved k mode n)
    (hno : ∀ m, Chain k mode n m → ¬ Chain k mode m m) :
    ∃ fuel, linkCheck fuel k mode self = .accept := by
  obtain ⟨ts, ht⟩ := Option.isSome_iff_exists.1 (hres n self (Or.inl rfl) hn)
  unfold linkCheck
  simp only [ht]
  refine ⟨_, check_accepts (d := mode.nodes.length) _ ts ?_ (Nat.lt_succ_self _)⟩
  intro x hx
  have hs : Leads k mode n x := by
    obtain ⟨h1, h2⟩ := (mem_linkTargets ht x).1 hx
    exact ⟨self, hn, h1, h2⟩
  refine ⟨fun l hw => walk_bounded (fun m hm => hno m (.cons hs hm)) hw, ?_⟩
  intro m refs hm hr
  have hnm : Chain k mode n m := by
    rcases hm with rfl | hm
    · exact .step hs
    · exact .cons hs hm
  refine ⟨?_, hres m refs (Or.inr hnm) hr⟩
  rintro rfl
  have hmx : Leads k mode m x := by
    obtain ⟨h1, h2⟩ := (mem_linkTargets ht x).1 hx
    exact ⟨refs, hr, h1, h2⟩
  refine hno m hnm ?_
  rcases hm with rfl | hm
  · exact .step hmx
  · exact .cons hmx hm

/-- The verdict does not depend on how far the compiler is willing to go, once it goes far enough. -/
theorem C73_stable {self : List NameRef} {fuel : Nat} {v : Verdict} (hv : v ≠ .endless)
    (h : linkCheck fuel k mode self = v) : linkCheck (fuel + 1) k mode self = v := by
  have main : ∀ (fuel : Nat) (queue : List Node) (v : Verdict), v ≠ .endless →
      cyclicCheck k mode self fuel queue = v → cyclicCheck k mode self (fuel + 1) queue = v := by
    intro fuel
    induction fuel with
    | zero => intro queue v hv h; simp [cyclicCheck] at h; exact absurd h.symm hv
    | succ fuel ih =>
      intro queue v hv h
      cases queue with
      | nil => simpa [cyclicCheck] using h
      | cons n rest =>
        simp only [cyclicCheck] at h
        rw [cyclicCheck]
        cases hl : n.links k with
        | none => simp only [hl] at h ⊢; exact ih _ _ hv h
        | some refs =>
          simp only [hl] at h ⊢
          split
          · rename_i hs; rw [if_pos hs] at h; exact h
          · rename_i hs
            rw [if_neg hs] at h
            cases ht : linkTargets mode refs with
            | none => simpa [ht] using h
            | some ts => simp only [ht] at h ⊢; exact ih _ _ hv h
  unfold linkCheck at h ⊢
  cases ht : linkTargets mode self with
  | none => simpa [ht] using h
  | some ts => simp only [ht] at h ⊢; exact main _ _ _ hv h

/-- An alias that passes its checks takes a fixed number of values, and each of the nodes it stands
for takes exactly as many. -/
theorem C75_counts {owner : Node} {self : List NameRef} {fuel : Nat}
    (h : aliasCheck fuel mode owner self = .accept) :
    ∃ count, owner.minMaxCount = some (count, count) ∧
      ∀ m p r, nodeAt mode p = some m → r ∈ self → r ∈ m.nameRefs →
        m.minMaxCount = some (count, count) := by
  have fixed : ∀ (n : Node) (c : Nat), fixedCountOf n = some c → n.minMaxCount = some (c, c) := by
    intro n c h
    unfold fixedCountOf at h
    cases hm : n.minMaxCount with
    | none => simp [hm] at h
    | some mm =>
      obtain ⟨mn, mx⟩ := mm
      simp only [hm] at h
      split at h
      · rename_i e; cases h; rw [e]
      · cases h
  unfold aliasCheck at h
  cases hc : fixedCountOf owner with
  | none => simp [hc] at h
  | some count =>
    cases ht : linkTargets mode self with
    | none => simp [hc, ht] at h
    | some ts =>
      simp only [hc, ht] at h
      split at h
      · split at h
        · rename_i hall
          refine ⟨count, fixed owner count hc, fun m p r hp hr hm => ?_⟩
          have := List.all_eq_true.1 hall m ((mem_linkTargets ht m).2 ⟨⟨p, hp⟩, r, hr, hm⟩)
          exact fixed m count (by simpa using this)
        · cases h
      · rename_i v hv; exact absurd h hv

section Examples

namespace CyclicEx

def vt : ValueType := ⟨false, .one (.bool false), fun _ => .ok (.bool true)⟩
def al (h : Nat) (name : Bytes) (refs : List Bytes) : Node :=
  .mk .arg h h vt [.longName name, .minMaxCount 1 1, .alias (refs.map .long)] []
def plain (h : Nat) (name : Bytes) : Node :=
  .mk .arg h h vt [.longName name, .minMaxCount 1 1] []
/-- `a → b`, `b → c`, where `c` is an ordinary argument. -/
def fine : Node := .mk .mode 1 1 vt [.router]
  [al 2 (b "aa") [b "bb"], al 3 (b "bb") [b "cc"], plain 4 (b "cc")]
/-- `a → b`, `b → c`, `c → a`. -/
def loop : Node := .mk .mode 1 1 vt [.router]
  [al 2 (b "aa") [b "bb"], al 3 (b "bb") [b "cc"], al 4 (b "cc") [b "aa"]]
/-- `a → b`, `b → b, c`: the cycle does not go through `a`. -/
def tail : Node := .mk .mode 1 1 vt [.router]
  [al 2 (b "aa") [b "bb"], al 3 (b "bb") [b "bb", b "cc"], plain 4 (b "cc")]

end CyclicEx

open CyclicEx

example : linkCheck 5 .alias fine [.long (b "bb")] = .accept ∧
    aliasCheck 5 fine (al 2 (b "aa") [b "bb"]) [.long (b "bb")] = .accept := by decide +kernel
example : linkCheck 5 .alias loop [.long (b "bb")] = .reject := by decide +kernel
/-- Seen from `a`, the second kind of cycle sends the compiler into an endless recursion. -/
example : linkCheck 100 .alias tail [.long (b "bb")] = .endless := by decide +kernel

theorem CyclicEx.leads_loop (i : Nat) (n m : Node) (s : Bytes) (hn : n.links .alias = some [.long s])
    (hm : nodeAt loop [i] = some m) (hs : NameRef.long s ∈ m.nameRefs) : Leads .alias loop n m :=
  ⟨_, links_iff.1 hn, ⟨[i], hm⟩, _, List.mem_singleton.2 rfl, hs⟩

/-- The hypotheses of `C73_detected` are met by the three aliases of `loop`. -/
example : Chain .alias loop (al 2 (b "aa") [b "bb"]) (al 2 (b "aa") [b "bb"]) :=
  .cons (leads_loop 1 _ (al 3 (b "bb") [b "cc"]) (b "bb") rfl rfl (by simp [Node.nameRefs, al, Node.policies]))
    (.cons (leads_loop 2 _ (al 4 (b "cc") [b "aa"]) (b "cc") rfl rfl
        (by simp [Node.nameRefs, al, Node.policies]))
      (.step (leads_loop 0 _ _ (b "aa") rfl rfl (by simp [Node.nameRefs, al, Node.policies]))))

end Examples

end ArgRouter.Props

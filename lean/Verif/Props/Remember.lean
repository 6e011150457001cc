import Verif.Props.History
import Verif.Lemmas.Blame

/-!
# C15 – exactly what a tree remembers of earlier parses

C15 is false (Props/History.lean): a `one_of` remembers the alternative it saw. The theorems here say
that this is all a tree remembers and exactly when it shows: a parse does what it does on a fresh
tree, unless it uses an alternative of a `one_of` other than the remembered one, and then it is
refused for that `one_of`.
-/

namespace ArgRouter

namespace Spec

/-- Everything remembered in `s` is remembered in `t`. -/
def Keeps (s t : St) : Prop := ∀ u h, s.lastTypeId u = some h → t.lastTypeId u = some h

/-- The `one_of` `o` of the tree remembers one alternative in `past`, and has another one
in `after`. -/
def Switched (root : Node) (past after : St) (o : Node) : Prop :=
  o ∈ root.nodes ∧ o.kind = .oneOf ∧
    ∃ h h', past.lastTypeId o.uid = some h ∧ after.lastTypeId o.uid = some h' ∧ h ≠ h'

end Spec

namespace Props

open Spec

theorem Keeps.refl (s : St) : Keeps s s := fun _ _ h => h
theorem Keeps.trans {s t u : St} (h1 : Keeps s t) (h2 : Keeps t u) : Keeps s u :=
  fun _ _ h => h2 _ _ (h1 _ _ h)

/-- Whatever is run adds to the memory and to the log. -/
def Grows {α : Type} (m : M α) : Prop :=
  ∀ s, Keeps s (m s).2 ∧ s.calls <+: (m s).2.calls

/-- From a state that remembers more, the same happens, or a switched alternative is refused. -/
def Replays (root : Node) {α : Type} (m : M α) : Prop :=
  Grows m ∧ ∀ s₀ s : St, Keeps s₀ s →
    ((m s).1 = (m s₀).1 ∧ Keeps (m s₀).2 (m s).2 ∧
      (∀ u h, (m s).2.lastTypeId u = some h →
        s.lastTypeId u = some h ∨ (m s₀).2.lastTypeId u = some h) ∧
      ∃ made, (m s₀).2.calls = s₀.calls ++ made ∧ (m s).2.calls = s.calls ++ made) ∨
    (∃ o, Switched root s (m s₀).2 o ∧
      (m s).1 = .throw ⟨.one_of_selected_type_mismatch, [o.tokenType]⟩ ∧
      ∃ made rest, (m s₀).2.calls = s₀.calls ++ (made ++ rest) ∧
        (m s).2.calls = s.calls ++ made)

namespace Replays

variable {root : Node}

theorem free {α : Type} {m : M α} (h : HistoryFree m) : Replays root m := by
  obtain ⟨o, log, h⟩ := h
  refine ⟨fun s => ?_, fun s₀ s hk => .inl ?_⟩
  · rw [h s]; exact ⟨fun _ _ h => h, List.prefix_append _ _⟩
  · rw [h s, h s₀]; exact ⟨rfl, hk, fun u x hx => .inl hx, log, rfl, rfl⟩

theorem pure {α : Type} (a : α) : Replays root (Pure.pure a : M α) := free (.pure a)
theorem lift {α : Type} (o : Out α) : Replays root (M.lift o) := free (.lift o)
theorem throw {α : Type} (e : Exc) : Replays root (M.throw e : M α) := free (.throw e)

theorem bind_grows {α β : Type} {m : M α} {f : α → M β} (hm : Grows m)
    (hf : ∀ a, Grows (f a)) : Grows (m >>= f) := by
  intro s
  have h := hm s
  rw [M.bind_apply]
  rcases hms : m s with ⟨o, s'⟩
  rw [hms] at h
  cases o with
  | ok a =>
    have h' := hf a s'
    exact ⟨Keeps.trans h.1 h'.1, h.2.trans h'.2⟩
  | _ => exact h

/-- What comes after the first part only adds. -/
theorem bind_after {α β : Type} {m : M α} {f : α → M β} (hf : ∀ a, Grows (f a)) (s : St) :
    Keeps (m s).2 ((m >>= f) s).2 ∧ (m s).2.calls <+: ((m >>= f) s).2.calls := by
  rw [M.bind_apply]
  rcases hms : m s with ⟨o, s'⟩
  cases o with
  | ok a => exact hf a s'
  | _ => exact ⟨Keeps.refl _, List.prefix_rfl⟩

theorem bind {α β : Type} {m : M α} {f : α → M β} (hm : Replays root m)
    (hf : ∀ a, Replays root (f a)) : Replays root (m >>= f) := by
  refine ⟨bind_grows hm.1 fun a => (hf a).1, ?_⟩
  intro s₀ s hk
  rcases hm.2 s₀ s hk with ⟨he, hk', hnew, made, hc₀, hc⟩ |
    ⟨o, ⟨ho, hok, h, h', h1, h2, h3⟩, he, made, rest, hc₀, hc⟩
  · rw [M.bind_apply, M.bind_apply]
    rcases hms : m s with ⟨o, s'⟩
    rcases hms₀ : m s₀ with ⟨o₀, s₀'⟩
    rw [hms, hms₀] at he hk' hnew
    rw [hms₀] at hc₀
    rw [hms] at hc
    simp only at he hk' hnew hc hc₀
    subst he
    cases o with
    | ok a =>
      simp only
      rcases (hf a).2 s₀' s' hk' with ⟨he, hk2, hnew2, made2, hc2₀, hc2⟩ |
        ⟨o, ⟨ho, hok, h, h', h1, h2, h3⟩, he, made2, rest, hc2₀, hc2⟩
      · refine .inl ⟨he, hk2, ?_, made ++ made2, ?_, ?_⟩
        · intro u h hh
          rcases hnew2 u h hh with hx | hx
          · rcases hnew u h hx with hy | hy
            · exact .inl hy
            · exact .inr (((hf a).1 s₀').1 u h hy)
          · exact .inr hx
        · rw [hc2₀, hc₀, List.append_assoc]
        · rw [hc2, hc, List.append_assoc]
      · refine .inr ⟨o, ⟨ho, hok, h, h', ?_, h2, h3⟩, he, made ++ made2, rest, ?_, ?_⟩
        · rcases hnew _ _ h1 with hx | hx
          · exact hx
          · have := ((hf a).1 s₀').1 _ _ hx
            rw [h2] at this
            exact absurd (Option.some.inj this).symm h3
        · rw [hc2₀, hc₀, List.append_assoc, List.append_assoc]
        · rw [hc2, hc, List.append_assoc]
    | _ => exact .inl ⟨rfl, hk', hnew, made, hc₀, hc⟩
  · have hafter := bind_after (m := m) (fun a => (hf a).1) s₀
    obtain ⟨rest', hr⟩ := hafter.2
    refine .inr ⟨o, ⟨ho, hok, h, h', h1, hafter.1 _ _ h2, h3⟩, ?_, made, rest ++ rest', ?_, ?_⟩
    · rw [M.bind_apply]
      rcases hms : m s with ⟨x, s'⟩
      rw [hms] at he
      simp only at he
      subst he
      rfl
    · rw [← hr, hc₀]; simp
    · rw [M.bind_apply]
      rcases hms : m s with ⟨x, s'⟩
      rw [hms] at he hc
      simp only at he
      subst he
      exact hc

end Replays

variable {root : Node}

open Replays in
theorem replays_leaf {cfg : Config} {n : Node} {parents : List Node} {args : List Token}
    {processed : Option Target} {validator : Validator} (hv : ∀ n, Replays root (validator n)) :
    Replays root (leafPreParse cfg n parents args processed validator) := by
  unfold leafPreParse
  refine bind (lift _) ?_
  rintro ⟨m, a, subs⟩
  simp only
  split
  · exact pure _
  · refine bind (hv n) ?_
    intro ok
    split
    · exact pure _
    · split
      · exact throw _
      · exact pure _

theorem oneOfValidator_state (o : Node) (inner : Validator) (c : Node) (s : St) :
    oneOfValidator o inner c s = (match s.lastTypeId o.uid with
      | some h =>
        if h ≠ c.hash then (.throw ⟨.one_of_selected_type_mismatch, [o.tokenType]⟩, s)
        else inner c s
      | none => inner c { s with sel := (o.uid, c.hash) :: s.sel }) := by
  show ((match s.lastTypeId o.uid with
      | some h =>
        if h ≠ c.hash then M.throw ⟨.one_of_selected_type_mismatch, [o.tokenType]⟩
        else inner c
      | none => do
        (fun s => (.ok (), { s with sel := (o.uid, c.hash) :: s.sel }) : M Unit)
        inner c : M Bool) s) = _
  cases s.lastTypeId o.uid with
  | none => rfl
  | some h => simp only; split <;> rfl

theorem lastTypeId_cons (s : St) (u h v : Nat) :
    ({ s with sel := (u, h) :: s.sel } : St).lastTypeId v =
      if v = u then some h else s.lastTypeId v := by
  simp only [St.lastTypeId, List.lookup]
  by_cases hv : v = u
  · simp [hv]
  · have : (v == u) = false := by simpa using hv
    simp [hv, this]

theorem replays_oneOfValidator {o : Node} (ho : o ∈ root.nodes) (hk : o.kind = .oneOf)
    {inner : Validator} (hi : ∀ n, Replays root (inner n)) (c : Node) :
    Replays root (oneOfValidator o inner c) := by
  have hset : ∀ s : St, s.lastTypeId o.uid = none →
      Keeps s { s with sel := (o.uid, c.hash) :: s.sel } := by
    intro s hn u h hu
    rw [lastTypeId_cons]
    split
    · rename_i hv; rw [hv, hn] at hu; cases hu
    · exact hu
  constructor
  · intro s
    rw [oneOfValidator_state]
    cases hs : s.lastTypeId o.uid with
    | none =>
      have h := (hi c).1 { s with sel := (o.uid, c.hash) :: s.sel }
      exact ⟨Keeps.trans (hset s hs) h.1, h.2⟩
    | some h =>
      simp only
      split
      · exact ⟨Keeps.refl _, List.prefix_rfl⟩
      · exact (hi c).1 s
  · intro s₀ s hle
    rw [oneOfValidator_state, oneOfValidator_state]
    cases hs₀ : s₀.lastTypeId o.uid with
    | some h =>
      rw [hle _ _ hs₀]
      simp only
      split
      · exact .inl ⟨rfl, hle, fun u h hh => .inl hh, [], by simp, by simp⟩
      · exact (hi c).2 s₀ s hle
    | none =>
      simp only
      cases hs : s.lastTypeId o.uid with
      | none =>
        simp only
        have hle' : Keeps { s₀ with sel := (o.uid, c.hash) :: s₀.sel }
            { s with sel := (o.uid, c.hash) :: s.sel } := by
          intro u h hu
          rw [lastTypeId_cons] at hu ⊢
          split at hu
          · rename_i hv; rw [if_pos hv]; exact hu
          · rename_i hv; rw [if_neg hv]; exact hle _ _ hu
        rcases (hi c).2 _ _ hle' with ⟨he, hk2, hnew, made, hc₀, hc⟩ |
          ⟨o', ⟨ho', hok', h, h', h1, h2, h3⟩, he, made, rest, hc₀, hc⟩
        · refine .inl ⟨he, hk2, ?_, made, hc₀, hc⟩
          intro u h hh
          rcases hnew u h hh with hx | hx
          · rw [lastTypeId_cons] at hx
            split at hx
            · rename_i hv
              exact .inr (((hi c).1 _).1 u h (by rw [lastTypeId_cons, if_pos hv]; exact hx))
            · exact .inl hx
          · exact .inr hx
        · refine .inr ⟨o', ⟨ho', hok', h, h', ?_, h2, h3⟩, he, made, rest, hc₀, hc⟩
          rw [lastTypeId_cons] at h1
          split at h1
          · rename_i hv
            have := ((hi c).1 { s₀ with sel := (o.uid, c.hash) :: s₀.sel }).1 o'.uid h
              (by rw [lastTypeId_cons, if_pos hv]; exact h1)
            rw [h2] at this
            exact absurd (Option.some.inj this).symm h3
          · exact h1
      | some h =>
        simp only
        have hpos : ({ s₀ with sel := (o.uid, c.hash) :: s₀.sel } : St).lastTypeId o.uid =
            some c.hash := by rw [lastTypeId_cons, if_pos rfl]
        split
        · rename_i hne
          obtain ⟨rest, hr⟩ := ((hi c).1 { s₀ with sel := (o.uid, c.hash) :: s₀.sel }).2
          exact .inr ⟨o, ⟨ho, hk, h, c.hash, hs, ((hi c).1 _).1 _ _ hpos, hne⟩, rfl, [], rest,
            by rw [← hr]; rfl, by simp⟩
        · rename_i heq
          have heq : h = c.hash := Decidable.not_not.mp heq
          have hle' : Keeps { s₀ with sel := (o.uid, c.hash) :: s₀.sel } s := by
            intro u x hu
            rw [lastTypeId_cons] at hu
            split at hu
            · rename_i hv; rw [hv, hs, heq]; exact hu
            · exact hle _ _ hu
          exact (hi c).2 _ s hle'

open Replays in
mutual
theorem replays_preParse (cfg : Config) (parents : List Node) (args : List Token)
    (processed : Option Target) : ∀ (n : Node) (validator : Validator), n ∈ root.nodes →
    (∀ n, Replays root (validator n)) →
    Replays root (preParse cfg parents args processed n validator)
  | .mk k u h v p cs, validator, hn, hv => by
    have hsub : ∀ c ∈ cs, c ∈ root.nodes := fun c hcm => nodes_trans _ _ hn _
      (child_mem_nodes (n := .mk k u h v p cs) hcm _ (self_mem_nodes _))
    cases k
    case aliasGroup =>
      rw [preParse_aliasGroup]
      exact replays_group cfg parents args processed cs validator hsub hv
    case oneOf =>
      rw [preParse_oneOf]
      exact replays_oneOf cfg parents args processed cs _ hsub
        (replays_oneOfValidator hn rfl hv)
    all_goals
      rw [preParse_leaf _ _ _ _ _ _ (by rfl)]
      exact replays_leaf hv
theorem replays_group (cfg : Config) (parents : List Node) (args : List Token)
    (processed : Option Target) : ∀ (ns : List Node) (validator : Validator),
    (∀ n ∈ ns, n ∈ root.nodes) → (∀ n, Replays root (validator n)) →
    Replays root (preParseGroup cfg parents args processed validator ns)
  | [], validator, hn, hv => by rw [preParseGroup]; exact pure _
  | c :: cs, validator, hn, hv => by
    rw [preParseGroup]
    refine bind (replays_preParse cfg parents args processed c validator
      (hn c List.mem_cons_self) hv) ?_
    intro o
    cases o with
    | none =>
      exact replays_group cfg parents args processed cs validator
        (fun n h => hn n (List.mem_cons_of_mem _ h)) hv
    | some r => exact pure _
theorem replays_oneOf (cfg : Config) (parents : List Node) (args : List Token)
    (processed : Option Target) : ∀ (ns : List Node) (validator : Validator),
    (∀ n ∈ ns, n ∈ root.nodes) → (∀ n, Replays root (validator n)) →
    Replays root (preParseOneOf cfg parents args processed validator ns)
  | [], validator, hn, hv => by rw [preParseOneOf]; exact pure _
  | c :: cs, validator, hn, hv => by
    rw [preParseOneOf]
    refine bind (replays_preParse cfg parents args processed c validator
      (hn c List.mem_cons_self) hv) ?_
    intro o
    cases o with
    | none =>
      exact replays_oneOf cfg parents args processed cs validator
        (fun n h => hn n (List.mem_cons_of_mem _ h)) hv
    | some r => exact bind (hv c) fun _ => pure _
end

open Replays in
theorem replays_modeStep (cfg : Config) (parents : List Node) (target : Target)
    (matched : List Bool) (front : Token) (args : List Token) (cs : List Node) (i : Nat)
    (hn : ∀ c ∈ cs, c ∈ root.nodes) :
    Replays root (modeStep cfg parents target matched front args cs i) := by
  induction cs generalizing i with
  | nil => rw [modeStep]; exact pure _
  | cons c cs ih =>
    have ih := fun i => ih i fun c hc => hn c (List.mem_cons_of_mem _ hc)
    rw [modeStep]
    split
    · exact ih _
    · refine bind (replays_preParse _ _ _ _ _ _ (hn c List.mem_cons_self)
        (fun n => free (historyFree_verifyMatch _ _ n))) ?_
      intro o
      cases o with
      | none => exact ih _
      | some r => exact pure _

theorem children_nodes {mode : Node} (hn : mode ∈ root.nodes) :
    ∀ c ∈ mode.children, c ∈ root.nodes :=
  fun _ hc => nodes_trans _ _ hn _ (child_mem_nodes hc _ (self_mem_nodes _))

open Replays in
theorem replays_modeLoop (cfg : Config) (mode : Node) (parents : List Node) (fuel : Nat)
    (target : Target) (matched : List Bool) (args : List Token) (hn : mode ∈ root.nodes) :
    Replays root (modeLoop cfg mode parents fuel target matched args) := by
  induction fuel generalizing target matched args with
  | zero =>
    cases args with
    | nil => rw [modeLoop]; exact pure _
    | cons x xs => rw [modeLoop]; exact lift _
  | succ fuel ih =>
    cases args with
    | nil => rw [modeLoop]; exact pure _
    | cons x xs =>
      rw [modeLoop]
      refine bind (replays_modeStep _ _ _ _ _ _ _ _ (children_nodes hn)) ?_
      intro o
      cases o with
      | none =>
        simp only
        split
        · exact throw _
        · exact lift _
      | some r => exact ih _ _ _

open Replays in
theorem replays_modeBody (cfg : Config) (mode : Node) (parents : List Node)
    (validator : Validator) (args : List Token) (hn : mode ∈ root.nodes)
    (hv : ∀ n, Replays root (validator n)) :
    Replays root (modeBody cfg mode parents validator args) := by
  rw [modeBody]
  refine bind (hv mode) ?_
  intro ok
  split
  · exact pure _
  · exact bind (replays_modeLoop _ _ _ _ _ _ _ hn) fun _ => pure _

open Replays in
mutual
theorem replays_preParseMode (cfg : Config) (parents : List Node) (args : List Token)
    (validator : Validator) (hv : ∀ n, Replays root (validator n)) : ∀ n : Node,
    n ∈ root.nodes → Replays root (preParseMode cfg parents args validator n)
  | .mk k u h v p cs, hn => by
    rw [preParseMode]
    split
    · exact replays_modeBody _ _ _ _ _ hn hv
    · refine bind (replays_leaf hv) ?_
      intro o
      cases o with
      | none => exact pure _
      | some r =>
        obtain ⟨t, args'⟩ := r
        simp only
        split
        · exact replays_modeBody _ _ _ _ _ hn hv
        · refine bind (replays_childModes cfg _ args' validator hv cs
            (children_nodes (mode := .mk k u h v p cs) hn)) ?_
          intro o
          cases o with
          | none => exact replays_modeBody _ _ _ _ _ hn hv
          | some r => exact pure _
theorem replays_childModes (cfg : Config) (parents : List Node) (args : List Token)
    (validator : Validator) (hv : ∀ n, Replays root (validator n)) : ∀ ns : List Node,
    (∀ n ∈ ns, n ∈ root.nodes) → Replays root (preParseChildModes cfg parents args validator ns)
  | [], hn => by rw [preParseChildModes]; exact pure _
  | .mk k u h v p cs :: ns, hn => by
    rw [preParseChildModes]
    have hns : ∀ n ∈ ns, n ∈ root.nodes := fun n h => hn n (List.mem_cons_of_mem _ h)
    split
    · refine bind (replays_preParseMode cfg parents args validator hv (.mk k u h v p cs)
        (hn _ List.mem_cons_self)) ?_
      intro o
      cases o with
      | none => exact replays_childModes cfg parents args validator hv ns hns
      | some r => exact pure _
    · exact replays_childModes cfg parents args validator hv ns hns
end

open Replays in
theorem replays_rootParse (cfg : Config) (root : Node) (args : List Token) :
    Replays root (rootParse cfg root args) := by
  have ha : ∀ n, Replays root (alwaysTrue n) := fun n => pure _
  have hloop : ∀ cs : List Node, (∀ c ∈ cs, c ∈ root.nodes) →
      Replays root (rootLoop cfg root args cs) := by
    intro cs
    induction cs with
    | nil => intro _; rw [rootLoop]; exact pure _
    | cons c cs ih =>
      intro hcs
      rw [rootLoop]
      refine bind ?_ ?_
      · unfold offerTo
        split
        · exact replays_preParseMode _ _ _ _ ha c (hcs c List.mem_cons_self)
        · exact replays_preParse _ _ _ _ c _ (hcs c List.mem_cons_self) ha
      · intro o
        cases o with
        | none => exact ih fun c hc => hcs c (List.mem_cons_of_mem _ hc)
        | some r =>
          obtain ⟨t, args'⟩ := r
          simp only
          split
          · exact throw _
          · refine bind ?_ fun _ => pure _
            unfold runTarget
            split
            · exact free (historyFree_parseMode _ _)
            · exact bind (free (historyFree_parseLeaf _)) fun _ => pure _
  unfold rootParse
  refine bind (hloop root.children (children_nodes (self_mem_nodes _))) ?_
  intro x
  split
  · exact pure _
  · simp only
    split
    · exact throw _
    · exact lift _

theorem keeps_fresh (s : St) : Keeps .fresh s := by
  intro u h hh; simp [St.lastTypeId, St.fresh] at hh

/-- C15, what holds (1): a parse from any past whose remembered alternatives the parse does not
switch away from – seen by what the same arguments leave behind on a fresh tree – does what it does
on a fresh tree: the same outcome, the same router calls; afterwards the tree remembers what it
remembered and what the parse chose, nothing else. -/
theorem C15_same_choice (cfg : Config) (root : Node) (args : List Bytes) (past : St)
    (hsame : ∀ o, ¬ Switched root past (parseArgs cfg root args .fresh).2 o) :
    (parseArgs cfg root args past).1 = (parseArgs cfg root args .fresh).1 ∧
    (parseArgs cfg root args past).2.calls =
      past.calls ++ (parseArgs cfg root args .fresh).2.calls ∧
    ∀ u h, (parseArgs cfg root args past).2.lastTypeId u = some h ↔
      past.lastTypeId u = some h ∨ (parseArgs cfg root args .fresh).2.lastTypeId u = some h := by
  have hr := replays_rootParse cfg root (args.map (Token.mk .none))
  rcases hr.2 .fresh past (keeps_fresh past) with ⟨he, hk, hnew, made, hc₀, hc⟩ | ⟨o, ho, _⟩
  · refine ⟨he, ?_, fun u h => ⟨hnew u h, ?_⟩⟩
    · show (rootParse cfg root (args.map (Token.mk .none)) past).2.calls = _
      rw [hc]
      show _ = _ ++ (rootParse cfg root (args.map (Token.mk .none)) .fresh).2.calls
      rw [hc₀]
      rfl
    · rintro (h1 | h1)
      · exact (hr.1 past).1 u h h1
      · exact hk u h h1
  · exact absurd ho (hsame o)

/-- C15, what holds (2): a parse that uses, on a fresh tree, an alternative of a `one_of` other than
the one remembered is refused: `one_of_selected_type_mismatch` for a `one_of` so switched, with no
more router calls than on a fresh tree. -/
theorem C15_other_choice (cfg : Config) (root : Node) (args : List Bytes) (past : St)
    (hother : ∃ o, Switched root past (parseArgs cfg root args .fresh).2 o) :
    ∃ o, Switched root past (parseArgs cfg root args .fresh).2 o ∧
      (parseArgs cfg root args past).1 =
        .throw ⟨.one_of_selected_type_mismatch, [o.tokenType]⟩ ∧
      ∃ made, made <+: (parseArgs cfg root args .fresh).2.calls ∧
        (parseArgs cfg root args past).2.calls = past.calls ++ made := by
  have hr := replays_rootParse cfg root (args.map (Token.mk .none))
  rcases hr.2 .fresh past (keeps_fresh past) with ⟨he, hk, hnew, made, hc₀, hc⟩ |
    ⟨o, ho, he, made, rest, hc₀, hc⟩
  · obtain ⟨o, -, -, h, h', h1, h2, h3⟩ := hother
    have h4 := hk _ _ h2
    have h5 := (hr.1 past).1 _ _ h1
    rw [h5] at h4
    exact absurd (Option.some.inj h4) h3
  · exact ⟨o, ho, he, made, ⟨rest, hc₀.symm⟩, hc⟩

/-- After `--cert x` the tree remembers, so the two theorems apply: `--cert y` is a same choice,
`--xx` another. -/
def certPast : St := (parseArgs .default oneOfRoot [b "--cert", b "x"] .fresh).2

example : (∀ o ∈ oneOfRoot.nodes, ∀ h h', certPast.lastTypeId o.uid = some h →
      (parseArgs .default oneOfRoot [b "--cert", b "y"] .fresh).2.lastTypeId o.uid = some h' →
      h = h') ∧ certPast.sel ≠ [] ∧
    (parseArgs .default oneOfRoot [b "--cert", b "y"] certPast).1 = .ok () := by
  have h1 : certPast.sel = (parseArgs .default oneOfRoot [b "--cert", b "y"] .fresh).2.sel := by
    decide +kernel
  refine ⟨fun o _ h h' e1 e2 => ?_, by decide +kernel, by decide +kernel⟩
  rw [St.lastTypeId, h1] at e1
  rw [St.lastTypeId, e1] at e2
  exact Option.some.inj e2

example : (oneOfRoot.nodes.any fun o => o.kind == .oneOf &&
    match certPast.lastTypeId o.uid,
      (parseArgs .default oneOfRoot [b "--xx"] .fresh).2.lastTypeId o.uid with
    | some h, some h' => h != h'
    | _, _ => false) = true := by decide +kernel

/-- Parsing the same arguments again and again gives the same outcome every time, and each time the
same router calls are added. -/
theorem C15_repeat (cfg : Config) (root : Node) (args : List Bytes) (times : Nat) :
    (parseArgs cfg root args (parseAll cfg root (List.replicate times args) .fresh)).1 =
      (parseArgs cfg root args .fresh).1 ∧
    (parseAll cfg root (List.replicate times args) .fresh).calls =
      (List.replicate times (parseArgs cfg root args .fresh).2.calls).flatten := by
  have key : ∀ s : St, (∀ u h, s.lastTypeId u = some h →
        (parseArgs cfg root args .fresh).2.lastTypeId u = some h) →
      (∀ o, ¬ Switched root s (parseArgs cfg root args .fresh).2 o) := by
    rintro s hs o ⟨-, -, h, h', h1, h2, h3⟩
    have := hs _ _ h1
    rw [h2] at this
    exact h3 (Option.some.inj this).symm
  have main : ∀ (k : Nat) (s : St), (∀ u h, s.lastTypeId u = some h →
        (parseArgs cfg root args .fresh).2.lastTypeId u = some h) →
      (parseArgs cfg root args (parseAll cfg root (List.replicate k args) s)).1 =
        (parseArgs cfg root args .fresh).1 ∧
      (parseAll cfg root (List.replicate k args) s).calls = s.calls ++
        (List.replicate k (parseArgs cfg root args .fresh).2.calls).flatten := by
    intro k
    induction k with
    | zero =>
      intro s hs
      exact ⟨(C15_same_choice cfg root args s (key s hs)).1, by simp [parseAll]⟩
    | succ k ih =>
      intro s hs
      obtain ⟨h1, h2, h3⟩ := C15_same_choice cfg root args s (key s hs)
      have hs' : ∀ u h, (parseArgs cfg root args s).2.lastTypeId u = some h →
          (parseArgs cfg root args .fresh).2.lastTypeId u = some h := by
        intro u h hu
        rcases (h3 u h).mp hu with hx | hx
        · exact hs u h hx
        · exact hx
      obtain ⟨i1, i2⟩ := ih _ hs'
      rw [List.replicate_succ]
      refine ⟨i1, ?_⟩
      rw [parseAll, i2, h2, List.replicate_succ, List.flatten_cons, List.append_assoc]
  have := main times .fresh fun u h hu => by simp [St.lastTypeId, St.fresh] at hu
  refine ⟨this.1, ?_⟩
  rw [this.2]
  rfl

end Props

end ArgRouter

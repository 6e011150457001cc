import Verif.Spec.Blame
import Verif.Lemmas.Safe
import Verif.Props.Depend

/-!
# What errors report

The invariant behind C93: the tokens handled are parts of the command line, and the nodes run are nodes
of the tree.
-/

namespace ArgRouter

open Spec Utf8 Props

/-- Every error satisfies `B`, every result `P`. -/
def Faults {α : Type} (B : Exc → Prop) (P : α → Prop) (o : Out α) : Prop :=
  (∀ e, o = .throw e → B e) ∧ ∀ a, o = .ok a → P a

namespace Faults

variable {α β : Type} {B : Exc → Prop} {P Q : α → Prop}

theorem ok {a : α} (h : P a) : Faults B P (.ok a) :=
  ⟨fun _ e => (by cases e), fun _ e => (by cases e; exact h)⟩
theorem pure {a : α} (h : P a) : Faults B P (Pure.pure a) := ok h
theorem throw {e : Exc} (h : B e) : Faults B P (.throw e) :=
  ⟨fun _ e => (by cases e; exact h), fun _ e => (by cases e)⟩
theorem foreign : Faults B P .foreign := ⟨fun _ e => (by cases e), fun _ e => (by cases e)⟩
theorem ub : Faults B P .ub := ⟨fun _ e => (by cases e), fun _ e => (by cases e)⟩
theorem diverge : Faults B P .diverge := ⟨fun _ e => (by cases e), fun _ e => (by cases e)⟩

theorem imp {o : Out α} (h : Faults B P o) (hpq : ∀ a, P a → Q a) : Faults B Q o :=
  ⟨h.1, fun a e => hpq a (h.2 a e)⟩

theorem bind {R : β → Prop} {o : Out α} {f : α → Out β} (h : Faults B P o)
    (hf : ∀ a, P a → Faults B R (f a)) : Faults B R (o >>= f) := by
  cases o with
  | ok a => exact hf a (h.2 a rfl)
  | throw e => exact throw (h.1 e rfl)
  | foreign => exact foreign
  | ub => exact ub
  | diverge => exact diverge

end Faults

/-- The same for code with state. -/
def FaultsM {α : Type} (B : Exc → Prop) (P : α → Prop) (m : M α) : Prop := ∀ s, Faults B P (m s).1

namespace FaultsM

variable {α β : Type} {B : Exc → Prop} {P Q : α → Prop}

theorem pure {a : α} (h : P a) : FaultsM B P (Pure.pure a : M α) := fun _ => Faults.ok h
theorem throw {e : Exc} (h : B e) : FaultsM B P (M.throw e : M α) := fun _ => Faults.throw h
theorem lift {o : Out α} (h : Faults B P o) : FaultsM B P (M.lift o) := fun _ => h
theorem imp {m : M α} (h : FaultsM B P m) (hpq : ∀ a, P a → Q a) : FaultsM B Q m :=
  fun s => (h s).imp hpq

theorem bind {R : β → Prop} {m : M α} {f : α → M β} (h : FaultsM B P m)
    (hf : ∀ a, P a → FaultsM B R (f a)) : FaultsM B R (m >>= f) := by
  intro s
  rw [M.bind_apply]
  have hs := h s
  match hx : m s with
  | (.ok a, s1) => rw [hx] at hs; exact hf a (hs.2 a rfl) s1
  | (.throw e, s1) => rw [hx] at hs; exact Faults.throw (hs.1 e rfl)
  | (.foreign, s1) => exact Faults.foreign
  | (.ub, s1) => exact Faults.ub
  | (.diverge, s1) => exact Faults.diverge

end FaultsM

/-! ## Tokens -/

theorem typed_infix {argv : List Bytes} {t : Token} {p : Prefix} {s : Bytes} (h : Typed argv t)
    (hs : s <:+: t.name) : Typed argv ⟨p, s⟩ :=
  let ⟨a, ha, hi⟩ := h
  ⟨a, ha, hs.trans hi⟩

theorem getTokenTypeNode_infix (cfg : Config) (l sh : Bool) (s : Bytes) :
    (getTokenTypeNode cfg l sh s).name <:+: s := by
  unfold getTokenTypeNode
  split
  · exact (List.drop_suffix _ _).isInfix
  · split
    · exact (List.drop_suffix _ _).isInfix
    · exact List.infix_refl _

theorem typed_node {argv : List Bytes} {cfg : Config} {n : Node} {t : Token} (h : Typed argv t) :
    Typed argv (if (t.pre == Prefix.none) = true then n.getToken cfg t.name else t) := by
  split
  · exact typed_infix h (getTokenTypeNode_infix _ _ _ _)
  · exact h

/-- The tokens of an adapter are parts of the command line. -/
def TypedAll (argv : List Bytes) (a : Adapter) : Prop :=
  (∀ t ∈ a.processed, Typed argv t) ∧ ∀ t ∈ a.unprocessed, Typed argv t

variable {root : Node} {argv : List Bytes}

theorem typed_transfer {a : Adapter} (h : TypedAll argv a) (it : AIter) :
    TypedAll argv (a.transfer it) :=
  ⟨fun t ht => (transfer_mem.1 t ht).elim (h.1 t) (h.2 t), fun t ht => h.2 t (transfer_mem.2 t ht)⟩

theorem typed_deref {a : Adapter} (h : TypedAll argv a) (it : AIter) :
    Faults (Blames root argv) (Typed argv) (a.deref it) := by
  unfold Adapter.deref
  split
  · split
    · split
      · rename_i t ht
        exact Faults.ok (h.2 t (List.mem_of_getElem? ht))
      · exact Faults.ub
    · split
      · exact Faults.ub
      · split
        · rename_i t ht
          exact Faults.ok (h.1 t (List.mem_of_getElem? ht))
        · exact Faults.ub
  · exact Faults.ub

theorem typed_set {a : Adapter} (h : TypedAll argv a) (it : AIter) {t : Token} (ht : Typed argv t) :
    Faults (Blames root argv) (TypedAll argv) (a.set it t) := by
  cases hs : a.set it t with
  | ok a' =>
    obtain ⟨h1, h2⟩ := set_mem hs
    exact Faults.ok ⟨fun x hx => by
      rcases h1 x hx with h3 | h3 | h3
      · exact h.1 x h3
      · exact h.2 x h3
      · rw [h3]; exact ht, fun x hx => h.2 x (h2.subset hx)⟩
  | throw e =>
    unfold Adapter.set at hs
    simp only at hs
    split at hs <;> cases hs
  | foreign => exact Faults.foreign
  | ub => exact Faults.ub
  | diverge => exact Faults.diverge

theorem typed_insert {a : Adapter} (h : TypedAll argv a) (it : AIter) {t : Token}
    (ht : Typed argv t) :
    Faults (Blames root argv) (fun x => TypedAll argv x.1) (a.insert it t) := by
  unfold Adapter.insert
  dsimp only
  have hx := typed_transfer h (it.add (-1))
  generalize a.transfer (it.add (-1)) = c at hx
  generalize (if c.isEnd it = true then (c.processed.length : Int) else it.i) = k
  split
  · refine Faults.ok ⟨fun x hm => ?_, hx.2⟩
    rcases List.mem_append.1 hm with h1 | h1
    · exact hx.1 x (List.mem_of_mem_take h1)
    · rcases List.mem_cons.1 h1 with h1 | h1
      · rw [h1]; exact ht
      · exact hx.1 x (List.mem_of_mem_drop h1)
  · exact Faults.ub

theorem typed_erase {a : Adapter} (h : TypedAll argv a) (it : AIter) :
    Faults (Blames root argv) (fun x => TypedAll argv x.1) (a.erase it) := by
  unfold Adapter.erase
  split
  · exact Faults.ok h
  · split
    · exact Faults.ub
    · split
      · exact Faults.ok ⟨fun t ht => h.1 t (List.mem_of_mem_eraseIdx ht), h.2⟩
      · exact Faults.ok ⟨h.1, fun t ht => h.2 t (List.mem_of_mem_eraseIdx ht)⟩

theorem find_faults {a : Adapter} (h : TypedAll argv a) (p : Token → Bool) (fuel : Nat)
    (it : AIter) : Faults (Blames root argv) (fun _ => True) (a.findFrom p fuel it) := by
  induction fuel generalizing it with
  | zero => exact Faults.ok trivial
  | succ fuel ih =>
    rw [Adapter.findFrom]
    split
    · exact Faults.ok trivial
    · refine (typed_deref h it).bind fun t _ => ?_
      split
      · exact Faults.ok trivial
      · exact ih _

/-! ## Unknown arguments -/

theorem unknownArgument_faults {α : Type} {P : α → Prop} {cfg : Config} {n : Node}
    (hn : n ∈ root.nodes) {t : Token} (ht : Typed argv t) :
    Faults (Blames root argv) P (unknownArgument (α := α) cfg n t) := by
  have hi : ∀ e, unknownArgument (α := α) cfg n t = .throw e → Blames root argv e := by
    intro e he
    have hu : (unknownArgument cfg n t : Out Unit) = .throw e := by
      unfold unknownArgument at he ⊢
      cases hc : closest cfg n t with
      | ok found =>
        rw [hc] at he
        simp only [Out.ok_bind] at he ⊢
        cases found with
        | nil => cases he; rfl
        | cons y ys => cases he; rfl
      | throw e' => rw [hc] at he; cases he; rfl
      | _ => rw [hc] at he; cases he
    have hcode : e = ⟨.unknown_argument, [t]⟩ ∨
        ∃ xs, e = ⟨.unknown_argument_with_suggestion, t :: xs⟩ := by
      unfold unknownArgument at hu
      cases hc : closest cfg n t with
      | ok found =>
        rw [hc] at hu
        simp only [Out.ok_bind] at hu
        split at hu
        · cases hu; exact .inl rfl
        · cases hu; exact .inr ⟨_, rfl⟩
      | throw e' => exact absurd hc (closest_ne_throw _ _ _ _)
      | _ => rw [hc] at hu; cases hu
    rcases hcode with rfl | ⟨xs, rfl⟩
    · exact .unknown ht
    · obtain ⟨m, ps, name, -, -, hs, rfl, -⟩ := C30_closest cfg n t xs hu
      exact .suggestion ht hn hs
  refine ⟨hi, fun a ha => ?_⟩
  unfold unknownArgument at ha
  cases hc : closest cfg n t with
  | ok found =>
    rw [hc] at ha
    simp only [Out.ok_bind] at ha
    split at ha <;> cases ha
  | _ => rw [hc] at ha; cases ha

/-! ## The phases -/

/-- What is kept true of the targets. -/
def GoodTarget (root : Node) (argv : List Bytes) (l : Leaf) : Prop :=
  l.node ∈ root.nodes ∧ ∀ t ∈ l.tokens, Typed argv t

/-- An error that is held back makes sense too. -/
def Held (root : Node) (argv : List Bytes) (r : PreResult) : Prop :=
  ∀ e, r = .error e → Blames root argv e

theorem held_ok {x : Action} : Held root argv (.ok x) := fun _ h => by cases h

theorem held_error {e : Exc} (h : Blames root argv e) : Held root argv (.error e) :=
  fun _ h' => by cases h'; exact h

theorem valueSeparator_faults {cfg : Config} {n : Node} (hn : n ∈ root.nodes) {sep : Bytes}
    (hs : .valueSeparator sep ∈ n.policies) {a : Adapter} (h : TypedAll argv a) :
    Faults (Blames root argv) (fun x => Held root argv x.1 ∧ TypedAll argv x.2)
      (valueSeparatorPhase cfg n sep a) := by
  unfold valueSeparatorPhase
  split
  · exact Faults.ok ⟨held_ok, h⟩
  · dsimp only
    refine (typed_deref h _).bind fun t ht => ?_
    split
    · generalize (if (t.pre == Prefix.none) = true then getTokenType cfg t.name else t) = tt
      split
      · exact Faults.pure ⟨held_error (.separator hn hs), h⟩
      · exact Faults.pure ⟨held_ok, h⟩
    · split
      · split
        · exact Faults.pure ⟨held_ok, h⟩
        · refine (typed_insert h _ (typed_infix ht (List.drop_suffix _ _).isInfix)).bind
            fun x hx => ?_
          exact (typed_set hx _ (typed_infix ht (List.take_prefix _ _).isInfix)).bind
            fun a ha => Faults.ok ⟨held_ok, ha⟩
      · exact Faults.foreign

theorem mem_flatten_infix {α : Type} {gs : List (List α)} {g : List α} (h : g ∈ gs) :
    g <:+: gs.flatten := by
  obtain ⟨p, q, rfl⟩ := List.append_of_mem h
  exact ⟨p.flatten, q.flatten, by simp⟩

theorem shortForm_faults {cfg : Config} {n : Node} {a : Adapter} (h : TypedAll argv a) :
    Faults (Blames root argv) (fun x => Held root argv x.1 ∧ TypedAll argv x.2)
      (shortFormExpanderPhase cfg n a) := by
  unfold shortFormExpanderPhase
  split
  · exact Faults.ok ⟨held_ok, h⟩
  · dsimp only
    refine (typed_deref h _).bind fun t ht => ?_
    have htt := typed_node (cfg := cfg) (n := n) ht
    generalize (if (t.pre == Prefix.none) = true then n.getToken cfg t.name else t) = tt at htt
    split
    · exact Faults.ok ⟨held_ok, h⟩
    · split
      · exact Faults.ok ⟨held_ok, h⟩
      · split
        · exact Faults.foreign
        · have hx := typed_transfer h Adapter.begin_
          cases hg : graphemes tt.name with
          | ok gs =>
            simp only [Out.ok_bind]
            have hflat := ((C41_any_bytes tt.name).2 gs hg).1
            have hin : ∀ g ∈ gs, Typed argv ⟨.short, g⟩ := fun g hm =>
              typed_infix htt (hflat ▸ mem_flatten_infix hm)
            have hhead : Typed argv ⟨.short, gs.headD []⟩ := by
              cases gs with
              | nil => exact typed_infix htt (List.nil_infix)
              | cons g gs => exact hin g List.mem_cons_self
            have hy : TypedAll argv ⟨(a.transfer Adapter.begin_).processed,
                gs.tail.map (Token.mk .short) ++ (a.transfer Adapter.begin_).unprocessed⟩ := ?_
            · exact (typed_set hy _ hhead).bind fun a ha => Faults.pure ⟨held_ok, ha⟩
            refine ⟨hx.1, fun x hm => ?_⟩
            rcases List.mem_append.1 hm with hm | hm
            · obtain ⟨g, hgm, rfl⟩ := List.mem_map.1 hm
              exact hin g (List.mem_of_mem_tail hgm)
            · exact hx.2 x hm
          | throw e => exact absurd hg (graphemes_ne_throw _ _)
          | foreign => exact Faults.foreign
          | ub => exact Faults.ub
          | diverge => exact Faults.diverge

theorem marker_faults {n : Node} {m : Bytes} {a : Adapter} (h : TypedAll argv a) :
    Faults (Blames root argv) (fun x => Held root argv x.1 ∧ TypedAll argv x.2)
      (tokenEndMarkerPhase n m a) := by
  unfold tokenEndMarkerPhase
  refine (find_faults h _ _ _).bind fun it _ => ?_
  exact (typed_erase (typed_transfer h it) it).bind fun x hx => Faults.ok ⟨held_ok, hx⟩

theorem minMaxCount_faults {n : Node} (hn : n ∈ root.nodes) {mn mx : Nat}
    (hp : .minMaxCount mn mx ∈ n.policies) {a : Adapter} (h : TypedAll argv a) :
    Held root argv (minMaxCountPhase n mn mx a).1 ∧ TypedAll argv (minMaxCountPhase n mn mx a).2 := by
  refine ⟨?_, ?_⟩
  · unfold minMaxCountPhase
    dsimp only
    generalize (if mn = sizeMax then mn else mn + if n.isNamed = true then 1 else 0) = x
    generalize (if mx = sizeMax then mx else mx + if n.isNamed = true then 1 else 0) = y
    generalize (if n.hasTokenEndMarker = true then a.processed.length else a.size) = z
    split
    · rename_i hc
      simp only [Bool.and_eq_true] at hc
      exact held_error (.many hn hp hc.1)
    · split
      · exact held_error (.few hn hp)
      · exact held_ok
  · rcases minMaxCount_snd n mn mx a with e | ⟨it, e⟩
    · rw [e]; exact h
    · rw [e]; exact typed_transfer h it

theorem phase_faults {cfg : Config} {n : Node} (hn : n ∈ root.nodes) {parents : List Node}
    (hp : ∀ p ∈ parents, p ∈ root.nodes) {processed : Option Target} {p : Policy}
    (hpol : p ∈ n.policies) {a : Adapter} (ha : TypedAll argv a) {subs : List Leaf}
    (hs : ∀ l ∈ subs, GoodTarget root argv l) :
    Faults (Blames root argv)
      (fun x => Held root argv x.1 ∧ TypedAll argv x.2.1 ∧ ∀ l ∈ x.2.2, GoodTarget root argv l)
      (p.phase cfg n parents processed a subs) := by
  cases p with
  | valueSeparator s =>
    exact (valueSeparator_faults hn hpol ha).bind fun x hx => Faults.ok ⟨hx.1, hx.2, hs⟩
  | shortFormExpander =>
    exact (shortForm_faults ha).bind fun x hx => Faults.ok ⟨hx.1, hx.2, hs⟩
  | tokenEndMarker m => exact (marker_faults ha).bind fun x hx => Faults.ok ⟨hx.1, hx.2, hs⟩
  | runtimeEnable e => exact Faults.ok ⟨held_ok, ha, hs⟩
  | runtimeEnableRequired e v => exact Faults.ok ⟨held_ok, ha, hs⟩
  | minMaxCount mn mx =>
    have := minMaxCount_faults hn hpol ha
    exact Faults.ok ⟨this.1, this.2, hs⟩
  | alias refs =>
    simp only [Policy.phase, aliasPhase]
    split
    · rename_i count mx mode hcount hmode
      split
      · exact Faults.ok ⟨held_error (.alias hn hpol), ha, hs⟩
      · refine (typed_deref ha _).bind fun t ht => ?_
        generalize (if (t.pre == Prefix.none) = true then n.getToken cfg t.name else t) = tt
        split
        · exact Faults.pure ⟨held_ok, ha, hs⟩
        · have hx := typed_transfer ha (Adapter.begin_.add count)
          refine Faults.pure ⟨held_ok, ⟨fun t ht => hx.1 t (List.mem_of_mem_drop ht), hx.2⟩, ?_⟩
          intro l hl
          rcases List.mem_append.1 hl with hl | hl
          · exact hs l hl
          · obtain ⟨m, hm, rfl⟩ := List.mem_map.1 hl
            have hmr : mode ∈ root.nodes := by
              rcases List.mem_cons.1 (nearest_mem hmode) with rfl | h3
              · exact hn
              · exact hp _ h3
            refine ⟨nodes_trans _ _ hmr _ (List.mem_filter.1 hm).1, fun t ht => ?_⟩
            rcases List.mem_append.1 (List.mem_of_mem_drop (List.mem_of_mem_take ht)) with h3 | h3
            · exact hx.1 t h3
            · exact hx.2 t h3
    · exact Faults.ub
  | dependent refs =>
    simp only [Policy.phase, dependentPhase]
    split
    · rename_i mode tg hmode
      split
      · rename_i m hm
        obtain ⟨hm, r, hin, hr⟩ := (mem_owners refs m mode).1 (List.mem_of_find?_eq_some hm)
        exact Faults.ok ⟨held_error (.dependent hn hpol
          (nodes_trans _ _ (hp _ (nearest_mem hmode)) _ hm) hr hin), ha, hs⟩
      · exact Faults.ok ⟨held_ok, ha, hs⟩
    · exact Faults.ub
  | longName _ => exact Faults.ok ⟨held_ok, ha, hs⟩
  | shortName _ => exact Faults.ok ⟨held_ok, ha, hs⟩
  | noneName _ => exact Faults.ok ⟨held_ok, ha, hs⟩
  | displayName _ => exact Faults.ok ⟨held_ok, ha, hs⟩
  | errorName _ => exact Faults.ok ⟨held_ok, ha, hs⟩
  | description _ => exact Faults.ok ⟨held_ok, ha, hs⟩
  | required => exact Faults.ok ⟨held_ok, ha, hs⟩
  | defaultValue _ => exact Faults.ok ⟨held_ok, ha, hs⟩
  | minMaxValue _ _ _ => exact Faults.ok ⟨held_ok, ha, hs⟩
  | validation _ _ => exact Faults.ok ⟨held_ok, ha, hs⟩
  | customParser _ => exact Faults.ok ⟨held_ok, ha, hs⟩
  | helpText _ => exact Faults.ok ⟨held_ok, ha, hs⟩
  | router => exact Faults.ok ⟨held_ok, ha, hs⟩
  | multiStage _ => exact Faults.ok ⟨held_ok, ha, hs⟩
  | noResult => exact Faults.ok ⟨held_ok, ha, hs⟩
  | other _ => exact Faults.ok ⟨held_ok, ha, hs⟩

theorem runPhases_faults {cfg : Config} {n : Node} (hn : n ∈ root.nodes) {parents : List Node}
    (hp : ∀ p ∈ parents, p ∈ root.nodes) {processed : Option Target} (ps : List Policy)
    (hps : ∀ p ∈ ps, p ∈ n.policies) :
    ∀ (m : PreResult) (a : Adapter) (subs : List Leaf), Held root argv m → TypedAll argv a →
    (∀ l ∈ subs, GoodTarget root argv l) →
    Faults (Blames root argv)
      (fun x => Held root argv x.1 ∧ TypedAll argv x.2.1 ∧ ∀ l ∈ x.2.2, GoodTarget root argv l)
      (runPhases cfg n parents processed ps m a subs) := by
  induction ps with
  | nil => intro m a subs hm ha hs; exact Faults.ok ⟨hm, ha, hs⟩
  | cons p ps ih =>
    intro m a subs hm ha hs
    have ih := ih (fun q hq => hps q (List.mem_cons_of_mem _ hq))
    have hph := phase_faults (cfg := cfg) (processed := processed) hn hp (hps p List.mem_cons_self)
      ha hs
    unfold runPhases
    split
    · match m with
      | .error e => exact Faults.ok ⟨hm, ha, hs⟩
      | .ok .skipNode => exact Faults.ok ⟨hm, ha, hs⟩
      | .ok .validNode => exact hph.bind fun x hx => ih _ _ _ hx.1 hx.2.1 hx.2.2
      | .ok .skipNodeButUseSubTargets =>
        refine hph.bind fun x hx => ih _ _ _ ?_ hx.2.1 hx.2.2
        split
        · exact held_ok
        · exact hx.1
    · exact ih _ _ _ hm ha hs

/-! ## Matching -/

/-- What is known of a match: its targets and the arguments left. -/
def GoodFind (root : Node) (argv : List Bytes) (r : Option (Target × List Token)) : Prop :=
  ∀ t args, r = some (t, args) → GoodTarget root argv ⟨t.node, t.tokens⟩ ∧
    (∀ l ∈ t.subs, GoodTarget root argv l) ∧ ∀ x ∈ args, Typed argv x

theorem goodFind_none : GoodFind root argv none := fun _ _ h => by cases h

theorem checkLabel_typed {cfg : Config} {n : Node} {m : PreResult} {a a' : Adapter}
    (ha : TypedAll argv a) (h : checkLabel cfg n m a = some a') :
    TypedAll argv a' := by
  have key : (if n.isNamed then
      let a : Option Adapter :=
        match a.processed, a.unprocessed with
        | [], [] => none
        | [], u :: us => some ⟨[u], us⟩
        | _ :: _, _ => some a
      match a with
      | none => none
      | some ⟨[], _⟩ => none
      | some ⟨first :: rest, us⟩ =>
        let first := if first.pre == .none then n.getToken cfg first.name else first
        if n.matchToken first then some ⟨first :: rest, us⟩ else none
    else some a) = some a' → TypedAll argv a' := by
    intro h
    split at h
    · obtain ⟨P, U⟩ := a
      cases P with
      | nil =>
        cases U with
        | nil => simp at h
        | cons u us =>
          dsimp only at h
          have hf := typed_node (cfg := cfg) (n := n) (ha.2 u List.mem_cons_self)
          generalize (if (u.pre == Prefix.none) = true then n.getToken cfg u.name else u) = f at h hf
          by_cases hm : n.matchToken f = true
          · rw [if_pos hm] at h
            simp only [Option.some.injEq] at h
            subst h
            exact ⟨fun t ht => by simp at ht; rw [ht]; exact hf,
              fun t ht => ha.2 t (List.mem_cons_of_mem _ ht)⟩
          · rw [if_neg hm] at h; cases h
      | cons x xs =>
        dsimp only at h
        have hf := typed_node (cfg := cfg) (n := n) (ha.1 x List.mem_cons_self)
        generalize (if (x.pre == Prefix.none) = true then n.getToken cfg x.name else x) = f at h hf
        by_cases hm : n.matchToken f = true
        · rw [if_pos hm] at h
          simp only [Option.some.injEq] at h
          subst h
          refine ⟨fun t ht => ?_, ha.2⟩
          rcases List.mem_cons.1 ht with h1 | h1
          · rw [h1]; exact hf
          · exact ha.1 t (List.mem_cons_of_mem _ h1)
        · rw [if_neg hm] at h; cases h
    · simp only [Option.some.injEq] at h
      subst h
      exact ha
  unfold checkLabel at h
  match m with
  | .ok .skipNode => simp at h
  | .ok .skipNodeButUseSubTargets =>
    simp only [Option.some.injEq] at h
    subst h
    exact ha
  | .ok .validNode => exact key h
  | .error e => exact key h

/-- The validators report sensible errors. -/
def GoodValidator (root : Node) (argv : List Bytes) (v : Validator) : Prop :=
  ∀ x, FaultsM (Blames root argv) (fun _ => True) (v x)

theorem leaf_faults {cfg : Config} {n : Node} (hn : n ∈ root.nodes) {parents : List Node}
    (hp : ∀ p ∈ parents, p ∈ root.nodes) {processed : Option Target} {args : List Token}
    (ha : ∀ t ∈ args, Typed argv t) {validator : Validator} (hv : GoodValidator root argv validator) :
    FaultsM (Blames root argv) (GoodFind root argv)
      (leafPreParse cfg n parents args processed validator) := by
  unfold leafPreParse
  refine FaultsM.bind (FaultsM.lift (runPhases_faults hn hp _ (fun p hp => mem_sortPolicies.1 hp) _ _ _
    held_ok ⟨by simp, ha⟩ (by simp))) ?_
  rintro ⟨m, a, subs⟩ ⟨h1, h2, h3⟩
  simp only
  cases hl : checkLabel cfg n m a with
  | none => exact FaultsM.pure goodFind_none
  | some a' =>
    refine FaultsM.bind (hv n) fun ok _ => ?_
    cases ok
    · exact FaultsM.pure goodFind_none
    · cases m with
      | error e => exact FaultsM.throw (h1 e rfl)
      | ok act =>
        have ht := checkLabel_typed h2 hl
        refine FaultsM.pure ?_
        intro t args' e
        simp only [Option.some.injEq, Prod.mk.injEq] at e
        obtain ⟨rfl, rfl⟩ := e
        refine ⟨⟨hn, fun t hm => ht.1 t ?_⟩, h3, ht.2⟩
        simp only at hm
        split at hm
        · exact List.mem_of_mem_tail hm
        · exact hm

theorem oneOfValidator_faults {o : Node} (ho : o ∈ root.nodes) (hk : o.kind = .oneOf)
    {inner : Validator} (hi : GoodValidator root argv inner) :
    GoodValidator root argv (oneOfValidator o inner) := by
  intro c s
  show Faults _ _ ((match s.lastTypeId o.uid with
      | some h =>
        if h ≠ c.hash then M.throw ⟨.one_of_selected_type_mismatch, [o.tokenType]⟩
        else inner c
      | none => do
        (fun s => (.ok (), { s with sel := (o.uid, c.hash) :: s.sel }) : M Unit)
        inner c : M Bool) s).1
  cases s.lastTypeId o.uid with
  | none => exact hi c _
  | some h =>
    simp only
    split
    · exact Faults.throw (.oneOf ho hk)
    · exact hi c _

mutual
theorem preParse_faults {cfg : Config} {parents : List Node} (hp : ∀ p ∈ parents, p ∈ root.nodes)
    {processed : Option Target} {args : List Token} (ha : ∀ t ∈ args, Typed argv t) :
    ∀ (n : Node) (validator : Validator), n ∈ root.nodes → GoodValidator root argv validator →
    FaultsM (Blames root argv) (GoodFind root argv) (preParse cfg parents args processed n validator)
  | .mk k u h v p cs, validator, hn, hv => by
    have hsub : ∀ c ∈ cs, c ∈ root.nodes := fun c hcm => nodes_trans _ _ hn _
      (child_mem_nodes (n := .mk k u h v p cs) hcm _ (self_mem_nodes _))
    cases k
    case aliasGroup =>
      rw [preParse_aliasGroup]; exact preParseGroup_faults hp ha cs validator hsub hv
    case oneOf =>
      rw [preParse_oneOf]
      exact preParseOneOf_faults hp ha cs _ hsub (oneOfValidator_faults hn rfl hv)
    all_goals
      rw [preParse_leaf _ _ _ _ _ _ (by rfl)]
      exact leaf_faults hn hp ha hv
theorem preParseGroup_faults {cfg : Config} {parents : List Node}
    (hp : ∀ p ∈ parents, p ∈ root.nodes)
    {processed : Option Target} {args : List Token} (ha : ∀ t ∈ args, Typed argv t) :
    ∀ (ns : List Node) (validator : Validator), (∀ n ∈ ns, n ∈ root.nodes) →
    GoodValidator root argv validator →
    FaultsM (Blames root argv) (GoodFind root argv)
      (preParseGroup cfg parents args processed validator ns)
  | [], validator, hn, hv => by rw [preParseGroup]; exact FaultsM.pure goodFind_none
  | c :: cs, validator, hn, hv => by
    rw [preParseGroup]
    refine FaultsM.bind (preParse_faults hp ha c validator (hn c List.mem_cons_self) hv) ?_
    intro o ho
    cases o with
    | none =>
      exact preParseGroup_faults hp ha cs validator (fun n h => hn n (List.mem_cons_of_mem _ h)) hv
    | some r => exact FaultsM.pure ho
theorem preParseOneOf_faults {cfg : Config} {parents : List Node}
    (hp : ∀ p ∈ parents, p ∈ root.nodes)
    {processed : Option Target} {args : List Token} (ha : ∀ t ∈ args, Typed argv t) :
    ∀ (ns : List Node) (validator : Validator), (∀ n ∈ ns, n ∈ root.nodes) →
    GoodValidator root argv validator →
    FaultsM (Blames root argv) (GoodFind root argv)
      (preParseOneOf cfg parents args processed validator ns)
  | [], validator, hn, hv => by rw [preParseOneOf]; exact FaultsM.pure goodFind_none
  | c :: cs, validator, hn, hv => by
    rw [preParseOneOf]
    refine FaultsM.bind (preParse_faults hp ha c validator (hn c List.mem_cons_self) hv) ?_
    intro o ho
    cases o with
    | none =>
      exact preParseOneOf_faults hp ha cs validator (fun n h => hn n (List.mem_cons_of_mem _ h)) hv
    | some r => exact FaultsM.bind (hv c) fun _ _ => FaultsM.pure ho
end

theorem verifyMatch_faults (already : Bool) {front : Token} (hf : Typed argv front) :
    GoodValidator root argv (verifyMatch already front) := by
  intro n
  unfold verifyMatch
  split
  · exact FaultsM.pure trivial
  · split
    · split
      · exact FaultsM.throw (.repeated hf)
      · exact FaultsM.pure trivial
    · exact FaultsM.pure trivial

/-! ## Modes -/

/-- What is known after one step of a mode. -/
def GoodTake (root : Node) (argv : List Bytes) (r : Option (Nat × Target × List Token)) : Prop :=
  ∀ i t args, r = some (i, t, args) → GoodTarget root argv ⟨t.node, t.tokens⟩ ∧
    (∀ l ∈ t.subs, GoodTarget root argv l) ∧ ∀ x ∈ args, Typed argv x

theorem modeStep_faults {cfg : Config} {parents : List Node}
    (hp : ∀ p ∈ parents, p ∈ root.nodes) (target : Target) (matched : List Bool) {front : Token}
    (hf : Typed argv front) {args : List Token} (ha : ∀ t ∈ args, Typed argv t) (cs : List Node)
    (hcs : ∀ c ∈ cs, c ∈ root.nodes) (i : Nat) :
    FaultsM (Blames root argv) (GoodTake root argv)
      (modeStep cfg parents target matched front args cs i) := by
  induction cs generalizing i with
  | nil => exact FaultsM.pure fun _ _ _ h => by cases h
  | cons c cs ih =>
    have ih := ih fun c hc => hcs c (List.mem_cons_of_mem _ hc)
    rw [modeStep]
    split
    · exact ih _
    · refine FaultsM.bind (preParse_faults hp ha c _ (hcs c List.mem_cons_self)
        (verifyMatch_faults _ hf)) ?_
      intro o ho
      cases o with
      | none => exact ih _
      | some x =>
        obtain ⟨t, args'⟩ := x
        refine FaultsM.pure fun j t' args'' e => ?_
        simp only [Option.some.injEq, Prod.mk.injEq] at e
        obtain ⟨-, rfl, rfl⟩ := e
        exact ho _ _ rfl

theorem modeLoop_faults {cfg : Config} {mode : Node} (hm : mode ∈ root.nodes) {parents : List Node}
    (hp : ∀ p ∈ parents, p ∈ root.nodes) (fuel : Nat) : ∀ (target : Target) (matched : List Bool)
    (args : List Token), (∀ t ∈ args, Typed argv t) → target.node = mode → target.tokens = [] →
    (∀ l ∈ target.subs, GoodTarget root argv l) →
    FaultsM (Blames root argv) (fun r => r.1.node = mode ∧ r.1.tokens = [] ∧
      (∀ l ∈ r.1.subs, GoodTarget root argv l) ∧ ∀ t ∈ r.2, Typed argv t)
      (modeLoop cfg mode parents fuel target matched args) := by
  have hpp : ∀ p ∈ mode :: parents, p ∈ root.nodes := by
    intro p hpm
    rcases List.mem_cons.1 hpm with rfl | h
    · exact hm
    · exact hp p h
  have hch : ∀ c ∈ mode.children, c ∈ root.nodes := fun c hc =>
    nodes_trans _ _ hm _ (child_mem_nodes hc _ (self_mem_nodes _))
  induction fuel with
  | zero =>
    intro target matched args ha ht htk hs
    cases args with
    | nil => rw [modeLoop]; exact FaultsM.pure ⟨ht, htk, hs, by simp⟩
    | cons front rest => rw [modeLoop]; exact FaultsM.lift Faults.diverge
  | succ fuel ih =>
    intro target matched args ha ht htk hs
    cases args with
    | nil => rw [modeLoop]; exact FaultsM.pure ⟨ht, htk, hs, by simp⟩
    | cons front rest =>
      rw [modeLoop]
      refine FaultsM.bind (modeStep_faults hpp target matched (ha front List.mem_cons_self) ha _
        hch 0) ?_
      intro o ho
      cases o with
      | none =>
        simp only
        split
        · exact FaultsM.throw (.unhandled (by simp) ha)
        · exact FaultsM.lift (unknownArgument_faults hm (ha front List.mem_cons_self))
      | some x =>
        obtain ⟨i, t, args'⟩ := x
        obtain ⟨h1, h2, h3⟩ := ho _ _ _ rfl
        refine ih _ _ _ h3 ht htk ?_
        intro l hl
        rcases List.mem_append.1 hl with hl | hl
        · exact hs l hl
        · unfold flattenMatch at hl
          split at hl
          · simp only [List.mem_singleton] at hl; subst hl; exact h1
          · exact h2 l hl

theorem modeBody_faults {cfg : Config} {mode : Node} (hm : mode ∈ root.nodes) {parents : List Node}
    (hp : ∀ p ∈ parents, p ∈ root.nodes) {args : List Token} (ha : ∀ t ∈ args, Typed argv t)
    {validator : Validator} (hv : GoodValidator root argv validator) :
    FaultsM (Blames root argv) (GoodFind root argv) (modeBody cfg mode parents validator args) := by
  unfold modeBody
  refine FaultsM.bind (hv mode) fun ok _ => ?_
  split
  · exact FaultsM.pure goodFind_none
  · refine FaultsM.bind (modeLoop_faults hm hp _ _ _ _ ha rfl rfl (by simp)) fun r h => ?_
    refine FaultsM.pure fun t args e => ?_
    simp only [Option.some.injEq] at e
    subst e
    exact ⟨⟨by rw [h.1]; exact hm, fun t ht => by rw [h.2.1] at ht; cases ht⟩, h.2.2.1, h.2.2.2⟩

mutual
theorem preParseMode_faults {cfg : Config} {validator : Validator}
    (hv : GoodValidator root argv validator) :
    ∀ (n : Node) (parents : List Node) (args : List Token), n ∈ root.nodes →
    (∀ p ∈ parents, p ∈ root.nodes) → (∀ t ∈ args, Typed argv t) →
    FaultsM (Blames root argv) (GoodFind root argv) (preParseMode cfg parents args validator n)
  | .mk k u h v p cs, parents, args, hn, hp, ha => by
    rw [preParseMode]
    split
    · exact modeBody_faults hn hp ha hv
    · refine FaultsM.bind (leaf_faults hn hp ha hv) ?_
      intro o ho
      cases o with
      | none => exact FaultsM.pure goodFind_none
      | some x =>
        obtain ⟨t, args'⟩ := x
        obtain ⟨-, -, ha'⟩ := ho _ _ rfl
        simp only
        split
        · exact modeBody_faults hn hp ha' hv
        · refine FaultsM.bind (preParseChildModes_faults hv cs _ args' ?_ ?_ ha') ?_
          · exact fun c hcm => nodes_trans _ _ hn _
              (child_mem_nodes (n := .mk k u h v p cs) hcm _ (self_mem_nodes _))
          · intro q hq
            rcases List.mem_cons.1 hq with rfl | hq
            · exact hn
            · exact hp q hq
          · intro o ho
            cases o with
            | none => exact modeBody_faults hn hp ha' hv
            | some x => exact FaultsM.pure ho
theorem preParseChildModes_faults {cfg : Config} {validator : Validator}
    (hv : GoodValidator root argv validator) :
    ∀ (ns : List Node) (parents : List Node) (args : List Token), (∀ n ∈ ns, n ∈ root.nodes) →
    (∀ p ∈ parents, p ∈ root.nodes) → (∀ t ∈ args, Typed argv t) →
    FaultsM (Blames root argv) (GoodFind root argv)
      (preParseChildModes cfg parents args validator ns)
  | [], parents, args, _, _, _ => by
    rw [preParseChildModes]; exact FaultsM.pure goodFind_none
  | .mk k u h v p cs :: ns, parents, args, hns, hp, ha => by
    rw [preParseChildModes]
    have ih := preParseChildModes_faults (cfg := cfg) hv ns parents args
      (fun n hn => hns n (List.mem_cons_of_mem _ hn)) hp ha
    split
    · refine FaultsM.bind (preParseMode_faults hv _ parents args (hns _ List.mem_cons_self) hp ha) ?_
      intro o ho
      cases o with
      | none => exact ih
      | some x => exact FaultsM.pure ho
    · exact ih
end

/-! ## Running the targets -/

theorem callRouter_faults (n : Node) (vs : List Value) :
    FaultsM (Blames root argv) (fun _ => True) (callRouter n vs) := fun _ => Faults.ok trivial

theorem callIfRouter_faults (n : Node) (vs : List Value) :
    FaultsM (Blames root argv) (fun _ => True) (callIfRouter n vs) := by
  unfold callIfRouter
  split
  · exact callRouter_faults _ _
  · exact FaultsM.pure trivial

theorem runValidation_faults {n : Node} (hn : n ∈ root.nodes) (v : Value) (ps : List Policy)
    (hps : ∀ p ∈ ps, p ∈ n.policies) :
    FaultsM (Blames root argv) (fun _ => True) (runValidation n v ps) := by
  induction ps with
  | nil => exact FaultsM.pure trivial
  | cons p ps ih =>
    have ih := ih fun q hq => hps q (List.mem_cons_of_mem _ hq)
    have hp := hps p List.mem_cons_self
    cases p <;> simp only [runValidation] <;> try exact ih
    · rename_i lo hi less
      split
      · rename_i h
        cases lo with
        | none => simp at h
        | some lo => exact FaultsM.throw (.low hn hp)
      · split
        · rename_i h
          cases hi with
          | none => simp at h
          | some hi => exact FaultsM.throw (.high hn hp)
        · exact ih
    · rename_i t f
      refine FaultsM.bind (FaultsM.lift (P := fun _ => True) ?_) fun _ _ => ih
      exact ⟨fun e he => .objection hn hp he, fun _ _ => trivial⟩

theorem parseLeaf_faults (hr : Reports root) {l : Leaf} (hl : GoodTarget root argv l) :
    FaultsM (Blames root argv) (fun _ => True) (parseLeaf l) := by
  obtain ⟨hn, hts⟩ := hl
  have hown : ∀ {f : Bytes → Out Scalar}, OwnValue f → ∀ t, Typed argv t →
      Faults (Blames root argv) (fun _ => True) (f t.name) := by
    intro f hf t ht
    refine ⟨fun e he => ?_, fun _ _ => trivial⟩
    rw [hf _ _ he]
    exact .value (typed_infix ht (List.infix_refl _)) rfl
  have htok : ∀ t, Typed argv t →
      Faults (Blames root argv) (fun _ => True) (parseToken l.node t.name) := by
    intro t ht
    unfold parseToken
    split
    · rename_i f hf
      rw [List.findSome?_eq_some_iff] at hf
      obtain ⟨l1, p, l2, hl, hp', -⟩ := hf
      cases p <;> simp at hp'
      subst hp'
      exact hown (hr.custom _ hn _ (by rw [hl]; simp)) t ht
    · exact hown (hr.parser _ hn) t ht
  have htoks : ∀ ts, (∀ t ∈ ts, Typed argv t) →
      Faults (Blames root argv) (fun _ => True) (parseTokens l.node ts) := by
    intro ts
    induction ts with
    | nil => intro _; exact Faults.ok trivial
    | cons t ts ih =>
      intro h
      rw [parseTokens]
      exact (htok _ (h t List.mem_cons_self)).bind fun _ _ =>
        (ih fun x hx => h x (List.mem_cons_of_mem _ hx)).bind fun _ _ => Faults.ok trivial
  have hval : Faults (Blames root argv) (fun _ => True) (parseValue l.node l.tokens) := by
    unfold parseValue
    split
    · exact (htoks _ hts).bind fun _ _ => Faults.ok trivial
    · split
      · exact Faults.ok trivial
      · rename_i t ts e
        exact (htok t (hts t (by rw [e]; exact List.mem_cons_self))).bind fun _ _ => Faults.ok trivial
  have hv : FaultsM (Blames root argv) (fun _ => True) (do
      let v ← M.lift (parseValue l.node l.tokens)
      runValidation l.node v l.node.policies
      callIfRouter l.node [v]
      Pure.pure (some v) : M (Option Value)) :=
    FaultsM.bind (FaultsM.lift hval) fun v _ =>
      FaultsM.bind (runValidation_faults hn _ _ fun _ h => h)
      fun _ _ => FaultsM.bind (callIfRouter_faults _ _) fun _ _ => FaultsM.pure trivial
  unfold parseLeaf
  split
  · exact FaultsM.bind (callIfRouter_faults _ _) fun _ _ => FaultsM.pure trivial
  · exact FaultsM.pure trivial
  · exact hv
  · exact hv
  · exact hv
  · exact hv
  · have hh : Faults (Blames root argv) (fun _ => True) (helpOutput l.node l.tokens) := by
      unfold helpOutput
      split
      · rename_i f hf
        rw [List.findSome?_eq_some_iff] at hf
        obtain ⟨l1, p, l2, hl, hp', -⟩ := hf
        cases p <;> simp at hp'
        subst hp'
        rename_i f
        refine ⟨fun e he => ?_, fun _ _ => trivial⟩
        obtain ⟨t, ht, rfl⟩ := hr.help _ hn f (by rw [hl]; simp) _ _ he
        exact .unknown (hts t ht)
      · exact Faults.ok trivial
    exact FaultsM.bind (FaultsM.lift hh) fun _ _ => FaultsM.bind (callRouter_faults _ _)
      fun _ _ => FaultsM.pure trivial
  · exact FaultsM.lift Faults.ub

theorem processResult_faults {n : Node} (hn : n ∈ root.nodes) (hh : n.hasParse = true)
    (rs : List (Option Value)) (i : Nat) (c : Node) (v : Value) :
    FaultsM (Blames root argv) (fun _ => True) (processResult rs i c n v) := by
  unfold processResult
  split
  · exact FaultsM.pure trivial
  · simp only
    split
    · exact FaultsM.pure trivial
    · rename_i hms
      split
      · exact FaultsM.throw (.valued hn hh (by simpa using hms))
      · exact FaultsM.pure trivial

theorem findChild_mem {hash : Nat} {i j : Nat} {c n : Node} : ∀ {cs : List Node},
    findChild hash cs i = some (j, c, n) → c ∈ cs ∧ n ∈ c.nodes ∧ n.hasParse = true := by
  intro cs
  induction cs generalizing i with
  | nil => intro h; simp [findChild] at h
  | cons d cs ih =>
    intro h
    rw [findChild] at h
    cases hm : matchChild hash d with
    | some m =>
      rw [hm] at h
      simp only [Option.some.injEq, Prod.mk.injEq] at h
      obtain ⟨-, rfl, rfl⟩ := h
      unfold matchChild at hm
      have h1 := List.find?_some hm
      simp only [Bool.and_eq_true] at h1
      exact ⟨List.mem_cons_self, List.mem_of_find?_eq_some hm, h1.1.2⟩
    | none =>
      rw [hm] at h
      obtain ⟨h1, h2⟩ := ih h
      exact ⟨List.mem_cons_of_mem _ h1, h2⟩

theorem processSubs_faults (hr : Reports root) {children : List Node}
    (hch : ∀ c ∈ children, c ∈ root.nodes)
    (ls : List Leaf) (rs : List (Option Value)) (hp : ∀ l ∈ ls, GoodTarget root argv l) :
    FaultsM (Blames root argv) (fun _ => True) (processSubs children ls rs) := by
  induction ls generalizing rs with
  | nil => exact FaultsM.pure trivial
  | cons l ls ih =>
    have ih' := fun rs => ih rs fun l hl => hp l (List.mem_cons_of_mem _ hl)
    rw [processSubs]
    refine FaultsM.bind (parseLeaf_faults hr (hp l List.mem_cons_self)) ?_
    intro o _
    cases o with
    | none => exact ih' _
    | some v =>
      simp only
      split
      · exact ih' _
      · rename_i i c n hf
        obtain ⟨h1, h2, h3⟩ := findChild_mem hf
        exact FaultsM.bind (processResult_faults (nodes_trans _ _ (hch c h1) _ h2) h3 _ _ _ _)
          fun _ _ => ih' _

theorem runMissing_faults {n : Node} (hn : n ∈ root.nodes) (ps : List Policy)
    (hps : ∀ p ∈ ps, p ∈ n.policies) (r : Option Value) :
    FaultsM (Blames root argv) (fun _ => True) (runMissing n ps r) := by
  induction ps generalizing r with
  | nil => exact FaultsM.pure trivial
  | cons p ps ih =>
    have ih := ih fun q hq => hps q (List.mem_cons_of_mem _ hq)
    have hp := hps p List.mem_cons_self
    cases p <;> simp only [runMissing] <;> try exact ih _
    · exact FaultsM.throw (.missing hn (.inl hp))
    · rename_i e v
      split
      · rename_i he
        subst he
        exact FaultsM.throw (.missing hn (.inr ⟨v, hp⟩))
      · exact ih _

theorem fillMissing_faults (cs : List Node) (hcs : ∀ c ∈ cs, c ∈ root.nodes)
    (rs : List (Option Value)) :
    FaultsM (Blames root argv) (fun _ => True) (fillMissing cs rs) := by
  induction cs generalizing rs with
  | nil => cases rs <;> exact FaultsM.pure trivial
  | cons c cs ih =>
    have hc := hcs c List.mem_cons_self
    cases rs with
    | nil => exact FaultsM.pure trivial
    | cons r rs =>
      rw [fillMissing]
      refine FaultsM.bind (P := fun _ => True) ?_
        fun r hr => FaultsM.bind (ih (fun d hd => hcs d (List.mem_cons_of_mem _ hd)) _)
          fun rs hrs => FaultsM.pure trivial
      unfold fillResult
      split
      · exact FaultsM.pure trivial
      · split
        · exact FaultsM.pure trivial
        · refine FaultsM.bind (P := fun _ => True) ?_ fun _ _ => FaultsM.pure trivial
          unfold processMissing
          exact FaultsM.bind (runMissing_faults hc _ (fun _ h => h) _) fun _ _ =>
            FaultsM.bind (runValidation_faults hc _ _ fun _ h => h) fun _ _ => FaultsM.pure trivial

theorem stages_faults (cs : List Node) (hcs : ∀ c ∈ cs, c ∈ root.nodes) (rs : List (Option Value)) :
    FaultsM (Blames root argv) (fun _ => True) (multiStageValidation cs rs) := by
  induction cs generalizing rs with
  | nil => cases rs <;> exact FaultsM.pure trivial
  | cons c cs ih =>
    have ih := ih fun d hd => hcs d (List.mem_cons_of_mem _ hd)
    cases rs with
    | nil => exact FaultsM.pure trivial
    | cons r rs =>
      rw [multiStageValidation]
      refine FaultsM.bind (P := fun _ => True) ?_ fun _ _ => ih _
      unfold validateStages
      split
      · split
        · exact runValidation_faults (hcs c List.mem_cons_self) _ _ fun _ h => h
        · exact FaultsM.lift Faults.ub
      · exact FaultsM.pure trivial

theorem parseMode_faults (hr : Reports root) {mode : Node} (hm : mode ∈ root.nodes)
    (hk : mode.kind = .mode) (ls : List Leaf) (hp : ∀ l ∈ ls, GoodTarget root argv l) :
    FaultsM (Blames root argv) (fun _ => True) (parseMode mode ls) := by
  have hch : ∀ c ∈ mode.children, c ∈ root.nodes := fun c hc =>
    nodes_trans _ _ hm _ (child_mem_nodes hc _ (self_mem_nodes _))
  unfold parseMode
  refine FaultsM.bind (processSubs_faults hr hch _ _ hp) fun _ _ =>
    FaultsM.bind (fillMissing_faults _ hch _) fun _ _ =>
    FaultsM.bind (stages_faults _ hch _) fun _ _ => ?_
  split
  · exact callRouter_faults _ _
  · rename_i hro
    exact FaultsM.throw (.mode hm hk (by simpa using hro))

theorem rootLoop_faults {cfg : Config} (hr : Reports root) {args : List Token}
    (ha : ∀ t ∈ args, Typed argv t) (cs : List Node) (hcs : ∀ c ∈ cs, c ∈ root.children) :
    FaultsM (Blames root argv) (fun _ => True) (rootLoop cfg root args cs) := by
  induction cs with
  | nil => exact FaultsM.pure trivial
  | cons c cs ih =>
    have hroot := self_mem_nodes root
    have hpar : ∀ p ∈ [root], p ∈ root.nodes := by simp [hroot]
    have hcn : c ∈ root.nodes := child_mem_nodes (hcs c List.mem_cons_self) _ (self_mem_nodes _)
    have htrue : GoodValidator root argv alwaysTrue := fun _ => FaultsM.pure trivial
    rw [rootLoop]
    refine FaultsM.bind (P := GoodFind root argv) ?_ ?_
    · unfold offerTo
      split
      · exact preParseMode_faults htrue c _ _ hcn hpar ha
      · exact preParse_faults hpar ha c _ hcn htrue
    · intro o ho
      cases o with
      | none => exact ih fun x hx => hcs x (List.mem_cons_of_mem _ hx)
      | some x =>
        obtain ⟨t, rest⟩ := x
        obtain ⟨h1, h2, h3⟩ := ho _ _ rfl
        simp only
        split
        · rename_i hne
          exact FaultsM.throw (.unhandled (by rintro rfl; simp at hne) h3)
        · refine FaultsM.bind (P := fun _ => True) ?_ fun _ _ => FaultsM.pure trivial
          unfold runTarget
          split
          · rename_i hk
            exact parseMode_faults hr h1.1 (eq_of_beq hk) _ h2
          · exact FaultsM.bind (parseLeaf_faults hr h1) fun _ _ => FaultsM.pure trivial

theorem parseArgs_faults {cfg : Config} (hr : Reports root) :
    FaultsM (Blames root argv) (fun _ => True) (parseArgs cfg root argv) := by
  have hg : ∀ t ∈ argv.map (Token.mk .none), Typed argv t := by
    intro t ht
    obtain ⟨s, hs, rfl⟩ := List.mem_map.1 ht
    exact ⟨s, hs, List.infix_refl _⟩
  unfold parseArgs rootParse
  refine FaultsM.bind (rootLoop_faults hr hg _ fun _ h => h) ?_
  intro done _
  split
  · exact FaultsM.pure trivial
  · simp only
    cases argv with
    | nil => exact FaultsM.throw (.nothing rfl)
    | cons a as =>
      simp only [List.map_cons, List.headD_cons]
      split
      · rename_i he
        exact FaultsM.throw (.nothing (by simpa using he))
      · exact FaultsM.lift (unknownArgument_faults (self_mem_nodes _)
          (hg _ (by simp)))

end ArgRouter

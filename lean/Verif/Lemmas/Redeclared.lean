import Verif.Props.PolicyOrder
import Verif.Spec.Help

/-!
# Two programs side by side

Relating the runs of two trees that are declared in different ways.
-/

namespace ArgRouter

open Spec Props

/-! ## Zips and options -/

/-- Both absent, or both there and related. -/
inductive OptRel {α β : Type} (R : α → β → Prop) : Option α → Option β → Prop where
  | none : OptRel R none none
  | some {a b} : R a b → OptRel R (some a) (some b)

theorem zip_append {α β : Type} {R : α → β → Prop} {l : List α} {m : List β} {l' : List α} {m' : List β}
    (h : Zip R l m) (h' : Zip R l' m') : Zip R (l ++ l') (m ++ m') := by
  induction h with
  | nil => exact h'
  | cons hab _ ih => exact .cons hab ih

theorem zip_map {α β γ δ : Type} {R : α → β → Prop} {S : γ → δ → Prop} {f : α → γ} {g : β → δ}
    (hf : ∀ a b, R a b → S (f a) (g b)) {l : List α} {m : List β} (h : Zip R l m) :
    Zip S (l.map f) (m.map g) := by
  induction h with
  | nil => exact .nil
  | cons hab _ ih => exact .cons (hf _ _ hab) ih

theorem zip_map_eq {α β γ : Type} {R : α → β → Prop} {f : α → γ} {g : β → γ}
    (hf : ∀ a b, R a b → f a = g b) {l : List α} {m : List β} (h : Zip R l m) :
    l.map f = m.map g := by
  induction h with
  | nil => rfl
  | cons hab _ ih => rw [List.map_cons, List.map_cons, hf _ _ hab, ih]

theorem zip_filter {α β : Type} {R : α → β → Prop} {f : α → Bool} {g : β → Bool}
    (hf : ∀ a b, R a b → f a = g b) {l : List α} {m : List β} (h : Zip R l m) :
    Zip R (l.filter f) (m.filter g) := by
  induction h with
  | nil => exact .nil
  | cons hab _ ih =>
    rw [List.filter_cons, List.filter_cons, hf _ _ hab]
    split
    · exact .cons hab ih
    · exact ih

theorem zip_find {α β : Type} {R : α → β → Prop} {f : α → Bool} {g : β → Bool}
    (hf : ∀ a b, R a b → f a = g b) {l : List α} {m : List β} (h : Zip R l m) :
    OptRel R (l.find? f) (m.find? g) := by
  induction h with
  | nil => exact .none
  | cons hab _ ih =>
    rw [List.find?_cons, List.find?_cons, hf _ _ hab]
    split
    · exact .some hab
    · exact ih

theorem zip_any {α β : Type} {R : α → β → Prop} {f : α → Bool} {g : β → Bool}
    (hf : ∀ a b, R a b → f a = g b) {l : List α} {m : List β} (h : Zip R l m) :
    l.any f = m.any g := by
  induction h with
  | nil => rfl
  | cons hab _ ih => rw [List.any_cons, List.any_cons, hf _ _ hab, ih]

theorem zip_isEmpty {α β : Type} {R : α → β → Prop} {l : List α} {m : List β} (h : Zip R l m) :
    l.isEmpty = m.isEmpty := by cases h <;> rfl

theorem zip_length {α β : Type} {R : α → β → Prop} {l : List α} {m : List β} (h : Zip R l m) :
    l.length = m.length := by
  induction h with
  | nil => rfl
  | cons _ _ ih => simp [ih]

theorem zip_dropLast {α β : Type} {R : α → β → Prop} {l : List α} {m : List β} (h : Zip R l m) :
    Zip R l.dropLast m.dropLast := by
  induction h with
  | nil => exact .nil
  | cons hab h ih =>
    cases h with
    | nil => exact .nil
    | cons hcd h => exact .cons hab ih

/-! ## Outcomes and code -/

/-- The same way to end, with related values. -/
def RelOut {α β : Type} (R : α → β → Prop) : Out α → Out β → Prop
  | .ok a, .ok b => R a b
  | .throw e, .throw e' => e = e'
  | .foreign, .foreign => True
  | .ub, .ub => True
  | .diverge, .diverge => True
  | _, _ => False

theorem RelOut.refl {α : Type} {R : α → α → Prop} (hR : ∀ a, R a a) (o : Out α) : RelOut R o o := by
  cases o <;> simp [RelOut, hR]

theorem RelOut.eq {α : Type} {o o' : Out α} (h : RelOut (· = ·) o o') : o = o' := by
  cases o <;> cases o' <;> simp_all [RelOut]

theorem RelOut.bind {α β γ δ : Type} {R : α → β → Prop} {S : γ → δ → Prop} {o : Out α} {o' : Out β}
    {f : α → Out γ} {g : β → Out δ} (h : RelOut R o o') (hf : ∀ a b, R a b → RelOut S (f a) (g b)) :
    RelOut S (o >>= f) (o' >>= g) := by
  cases o <;> cases o' <;> simp_all [RelOut]

/-- Code that from the same past goes the same way, to the same past and to related values. -/
def RelM (σ : Nat → Nat) {α β : Type} (R : α → β → Prop) (m : M α) (m' : M β) : Prop :=
  ∀ s s', SamePast σ s s' → RelOut R (m s).1 (m' s').1 ∧ SamePast σ (m s).2 (m' s').2

variable {σ : Nat → Nat}

theorem RelM.bind {α β γ δ : Type} {R : α → β → Prop} {S : γ → δ → Prop} {m : M α} {m' : M β}
    {f : α → M γ} {g : β → M δ} (h : RelM σ R m m') (hf : ∀ a b, R a b → RelM σ S (f a) (g b)) :
    RelM σ S (m >>= f) (m' >>= g) := by
  intro s s' hs
  have := h s s' hs
  rw [M.bind_apply, M.bind_apply]
  match hm : m s, hm' : m' s' with
  | (.ok a, t), (.ok b, t') =>
    rw [hm, hm'] at this
    exact hf a b this.1 t t' this.2
  | (.throw e, t), (.throw e', t') => rw [hm, hm'] at this; exact this
  | (.foreign, t), (.foreign, t') => rw [hm, hm'] at this; exact this
  | (.ub, t), (.ub, t') => rw [hm, hm'] at this; exact this
  | (.diverge, t), (.diverge, t') => rw [hm, hm'] at this; exact this
  | (.ok _, t), (.throw _, t') => rw [hm, hm'] at this; exact this.1.elim
  | (.ok _, t), (.foreign, t') => rw [hm, hm'] at this; exact this.1.elim
  | (.ok _, t), (.ub, t') => rw [hm, hm'] at this; exact this.1.elim
  | (.ok _, t), (.diverge, t') => rw [hm, hm'] at this; exact this.1.elim
  | (.throw _, t), (.ok _, t') => rw [hm, hm'] at this; exact this.1.elim
  | (.throw _, t), (.foreign, t') => rw [hm, hm'] at this; exact this.1.elim
  | (.throw _, t), (.ub, t') => rw [hm, hm'] at this; exact this.1.elim
  | (.throw _, t), (.diverge, t') => rw [hm, hm'] at this; exact this.1.elim
  | (.foreign, t), (.ok _, t') => rw [hm, hm'] at this; exact this.1.elim
  | (.foreign, t), (.throw _, t') => rw [hm, hm'] at this; exact this.1.elim
  | (.foreign, t), (.ub, t') => rw [hm, hm'] at this; exact this.1.elim
  | (.foreign, t), (.diverge, t') => rw [hm, hm'] at this; exact this.1.elim
  | (.ub, t), (.ok _, t') => rw [hm, hm'] at this; exact this.1.elim
  | (.ub, t), (.throw _, t') => rw [hm, hm'] at this; exact this.1.elim
  | (.ub, t), (.foreign, t') => rw [hm, hm'] at this; exact this.1.elim
  | (.ub, t), (.diverge, t') => rw [hm, hm'] at this; exact this.1.elim
  | (.diverge, t), (.ok _, t') => rw [hm, hm'] at this; exact this.1.elim
  | (.diverge, t), (.throw _, t') => rw [hm, hm'] at this; exact this.1.elim
  | (.diverge, t), (.foreign, t') => rw [hm, hm'] at this; exact this.1.elim
  | (.diverge, t), (.ub, t') => rw [hm, hm'] at this; exact this.1.elim

theorem RelM.pure {α β : Type} {R : α → β → Prop} {a : α} {b : β} (h : R a b) :
    RelM σ R (Pure.pure a) (Pure.pure b) := fun _ _ hs => ⟨h, hs⟩

theorem RelM.lift {α β : Type} {R : α → β → Prop} {o : Out α} {o' : Out β} (h : RelOut R o o') :
    RelM σ R (M.lift o) (M.lift o') := fun _ _ hs => ⟨h, hs⟩

theorem RelM.throw {α β : Type} {R : α → β → Prop} (e : Exc) :
    RelM σ R (M.throw e : M α) (M.throw e : M β) := fun _ _ hs => ⟨rfl, hs⟩

theorem RelM.lift_eq {α : Type} (o : Out α) : RelM σ (· = ·) (M.lift o) (M.lift o) :=
  RelM.lift (RelOut.refl (fun _ => rfl) o)

/-! ## What nodes that are declared in different ways have in common -/

theorem findSome_kept {β : Type} {f : Policy → Option β}
    (hf : ∀ x, SetAside x = true → f x = none) (l : List Policy) :
    l.findSome? f = (l.filter fun x => !SetAside x).findSome? f := by
  induction l with
  | nil => rfl
  | cons x l ih =>
    rw [List.filter_cons]
    cases h : SetAside x with
    | true => simp [List.findSome?_cons, hf x h, ih]
    | false => simp [List.findSome?_cons, ih]

theorem any_kept {f : Policy → Bool} (hf : ∀ x, SetAside x = true → f x = false)
    (l : List Policy) : l.any f = (l.filter fun x => !SetAside x).any f := by
  induction l with
  | nil => rfl
  | cons x l ih =>
    rw [List.filter_cons]
    cases h : SetAside x with
    | true => simp [hf x h, ih]
    | false => simp [ih]

theorem filterMap_kept {β : Type} {f : Policy → Option β}
    (hf : ∀ x, SetAside x = true → f x = none) (l : List Policy) :
    l.filterMap f = (l.filter fun x => !SetAside x).filterMap f := by
  induction l with
  | nil => rfl
  | cons x l ih =>
    rw [List.filter_cons]
    cases h : SetAside x with
    | true => simp [List.filterMap_cons, hf x h, ih]
    | false => simp [List.filterMap_cons, ih]

theorem filter_kept {f : Policy → Bool} (hf : ∀ x, SetAside x = true → f x = false)
    (l : List Policy) : l.filter f = (l.filter fun x => !SetAside x).filter f := by
  rw [List.filter_filter]
  refine List.filter_congr fun x _ => ?_
  cases h : SetAside x with
  | true => simp [hf x h]
  | false => simp

/-- Policies of which only one counts, by their kind. -/
theorem Spec.SameReading.findSome {β : Type} {p q : List Policy} (h : SameReading p q)
    {f : Policy → Option β} (hf : ∀ x, SetAside x = true → f x = none)
    (hk : ∀ x y, (f x).isSome → (f y).isSome → x.kindNo = y.kindNo) :
    p.findSome? f = q.findSome? f := by
  rw [findSome_kept hf p, findSome_kept hf q]
  exact findSome_perm f h.same fun x hx y hy h1 h2 => kind_inj h.once hx hy (hk x y h1 h2)

theorem Spec.SameReading.any {p q : List Policy} (h : SameReading p q) {f : Policy → Bool}
    (hf : ∀ x, SetAside x = true → f x = false) : p.any f = q.any f := by
  rw [any_kept hf p, any_kept hf q]
  exact h.same.any_eq

theorem prio_nodup {l : List Policy} (hk : (l.map Policy.kindNo).Nodup)
    (hm : ∀ p ∈ l, p.matters = true) : (l.map Policy.priority).Nodup := by
  induction l with
  | nil => simp
  | cons p l ih =>
    simp only [List.map_cons, List.nodup_cons, List.mem_map, not_exists, not_and] at hk ⊢
    refine ⟨?_, ih hk.2 fun q hq => hm q (List.mem_cons_of_mem _ hq)⟩
    intro q hq he
    refine hk.1 q hq ?_
    have hpm := hm p List.mem_cons_self
    have hqm := hm q (List.mem_cons_of_mem _ hq)
    cases p <;> simp [Policy.matters] at hpm <;> cases q <;> simp [Policy.matters] at hqm <;>
      simp [Policy.priority] at he <;> rfl

theorem Spec.SameReading.phases {p q : List Policy} (h : SameReading p q) :
    sortPolicies (p.filter Policy.matters) = sortPolicies (q.filter Policy.matters) := by
  have hm : ∀ x, SetAside x = true → x.matters = false := by
    intro x hx
    cases x <;> simp [SetAside] at hx <;> rfl
  rw [filter_kept hm p, filter_kept hm q]
  refine sortPolicies_of_perm (h.same.filter _) (prio_nodup ?_ ?_)
  · exact ((h.same.map _).nodup_iff.1 h.once).sublist (List.Sublist.map _ List.filter_sublist)
  · exact fun x hx => (List.mem_filter.1 hx).2

theorem Spec.SameSet.reading {p q : List Policy} (h : SameSet p q) : SameReading p q := by
  have hf : ∀ l : List Policy, (l.filter fun x => !SetAside x) =
      (l.filter fun x => !ForHelpOnly x).filter fun x => !SetAside x := by
    intro l
    rw [List.filter_filter]
    refine List.filter_congr fun x _ => ?_
    cases x <;> rfl
  refine ⟨?_, ?_⟩
  · rw [hf]
    exact h.once.sublist (List.Sublist.map _ List.filter_sublist)
  · rw [hf p, hf q]
    exact h.same.filter _

/-- Ways for policies to differ that keep what counts. -/
class Sets (P : List Policy → List Policy → Prop) : Prop where
  set : ∀ p q, P p q → SameReading p q

instance : Sets SamePolicies := ⟨fun _ _ h => h.toSameSet.reading⟩

instance : Sets AnyOrder := ⟨fun _ _ h =>
  ⟨h.once.sublist (List.Sublist.map _ List.filter_sublist), h.same.filter _⟩⟩

section
variable {n n' : Node} {P : List Policy → List Policy → Prop}

theorem Spec.Alike.policies (h : Alike P σ n n') : P n.policies n'.policies := by
  cases h with
  | mk h _ => exact h

theorem Spec.Alike.kind (h : Alike P σ n n') : n'.kind = n.kind := by cases h; rfl
theorem Spec.Alike.uid (h : Alike P σ n n') : n'.uid = n.uid := by cases h; rfl
theorem Spec.Alike.vt (h : Alike P σ n n') : n'.vt = n.vt := by cases h; rfl
theorem Spec.Alike.hash (h : Alike P σ n n') : n'.hash = σ n.hash := by cases h; rfl

theorem Spec.AlikeAll.zip {cs ds : List Node} (h : AlikeAll P σ cs ds) :
    Zip (Alike P σ) cs ds := by
  induction cs generalizing ds with
  | nil => cases h; exact .nil
  | cons c cs ih =>
    cases h with
    | cons h1 h2 => exact .cons h1 (ih h2)

theorem Spec.Alike.children (h : Alike P σ n n') :
    Zip (Alike P σ) n.children n'.children := by
  cases h with
  | mk _ h => exact h.zip

variable [Sets P]

theorem Spec.Alike.sets (h : Alike P σ n n') : SameReading n.policies n'.policies :=
  Sets.set _ _ h.policies

theorem Spec.Alike.facts (h : Alike P σ n n') : SameFacts n n' := by
  have hp := h.sets
  constructor
  case marker =>
    exact hp.any (by intro x hx; cases x <;> simp [SetAside] at hx <;> rfl)
  case router =>
    exact hp.any (by intro x hx; cases x <;> simp [SetAside] at hx <;> rfl)
  all_goals
    refine hp.findSome (by intro x hx; cases x <;> simp [SetAside] at hx <;> rfl) ?_
    intro x y h1 h2
    cases x <;> simp at h1 <;> cases y <;> simp at h2 <;> rfl

theorem Spec.Alike.isMultiStage (h : Alike P σ n n') : n'.isMultiStage = n.isMultiStage :=
  (h.sets.any (by intro x hx; cases x <;> simp [SetAside] at hx <;> rfl)).symm

theorem Spec.Alike.hasNoResult (h : Alike P σ n n') : n'.hasNoResult = n.hasNoResult :=
  (h.sets.any (by intro x hx; cases x <;> simp [SetAside] at hx <;> rfl)).symm

theorem Spec.Alike.runtimeEnabled (h : Alike P σ n n') :
    n'.runtimeEnabled = n.runtimeEnabled := by
  refine (h.sets.findSome (by intro x hx; cases x <;> simp [SetAside] at hx <;> rfl) ?_).symm
  intro x y h1 h2
  cases x <;> simp at h1 <;> cases y <;> simp at h2 <;> rfl

theorem Spec.Alike.hasParse (h : Alike P σ n n') : n'.hasParse = n.hasParse := by
  simp only [Node.hasParse, h.kind]

theorem Spec.Alike.isAnonymous (h : Alike P σ n n') : n'.isAnonymous = n.isAnonymous := by
  simp only [Node.isAnonymous, h.facts.none]

theorem Spec.Alike.phases (h : Alike P σ n n') : n'.phases = n.phases :=
  h.sets.phases.symm

theorem Spec.Alike.nameRefs (h : Alike P σ n n') : n.nameRefs.Perm n'.nameRefs := by
  unfold Node.nameRefs
  rw [filterMap_kept (by intro x hx; cases x <;> simp [SetAside] at hx <;> rfl) n.policies,
    filterMap_kept (by intro x hx; cases x <;> simp [SetAside] at hx <;> rfl) n'.policies]
  exact h.sets.same.filterMap _

/-! ## Trees -/

mutual
theorem walk_redeclared : ∀ (n : Node) {n' : Node} {ps qs : List Node}, Alike P σ n n' →
    Zip (Alike P σ) ps qs →
    Zip (fun a b => Alike P σ a.1 b.1 ∧ Zip (Alike P σ) a.2 b.2) (n.walk ps) (n'.walk qs)
  | .mk k u h v p cs, n', ps, qs, hr, hz => by
    have hr' := hr
    cases hr with
    | mk hp hc =>
      rw [Node.walk, Node.walk]
      exact .cons ⟨hr', hz⟩ (walkList_redeclared cs hc (.cons hr' hz))
theorem walkList_redeclared : ∀ (cs : List Node) {ds : List Node} {ps qs : List Node},
    AlikeAll P σ cs ds → Zip (Alike P σ) ps qs →
    Zip (fun a b => Alike P σ a.1 b.1 ∧ Zip (Alike P σ) a.2 b.2) (Node.walkList ps cs)
      (Node.walkList qs ds)
  | [], ds, ps, qs, hr, hz => by
    cases hr
    rw [Node.walkList, Node.walkList]
    exact .nil
  | c :: cs, ds, ps, qs, hr, hz => by
    cases hr with
    | cons h1 h2 =>
      rw [Node.walkList, Node.walkList]
      exact zip_append (walk_redeclared c h1 hz) (walkList_redeclared cs h2 hz)
end

theorem Spec.Alike.nodes (h : Alike P σ n n') : Zip (Alike P σ) n.nodes n'.nodes :=
  zip_map (fun _ _ h => h.1) (walk_redeclared n h .nil)

theorem zip_const {α β γ δ : Type} {R : γ → δ → Prop} {x : γ} {y : δ} (h : R x y) {l : List α}
    {m : List β} (hl : l.length = m.length) : Zip R (l.map fun _ => x) (m.map fun _ => y) := by
  induction l generalizing m with
  | nil => cases m with
    | nil => exact .nil
    | cons _ _ => simp at hl
  | cons a l ih => cases m with
    | nil => simp at hl
    | cons b m => exact .cons h (ih (by simpa using hl))

mutual
theorem owners_redeclared (refs : List NameRef) : ∀ (n : Node) {n' : Node}, Alike P σ n n' →
    Zip (Alike P σ) (n.owners refs) (n'.owners refs)
  | .mk k u h v p cs, n', hr => by
    have hr' := hr
    cases hr with
    | mk hp hc =>
      rw [Node.owners, Node.owners]
      exact zip_append (ownersList_redeclared refs cs hc)
        (zip_const hr' (hr'.nameRefs.filter _).length_eq)
theorem ownersList_redeclared (refs : List NameRef) : ∀ (cs : List Node) {ds : List Node},
    AlikeAll P σ cs ds → Zip (Alike P σ) (Node.ownersList refs cs) (Node.ownersList refs ds)
  | [], ds, hr => by
    cases hr
    rw [Node.ownersList]
    exact .nil
  | c :: cs, ds, hr => by
    cases hr with
    | cons h1 h2 =>
      rw [Node.ownersList, Node.ownersList]
      exact zip_append (owners_redeclared refs c h1) (ownersList_redeclared refs cs h2)
end

theorem Spec.Alike.unknown {α : Type} (h : Alike P σ n n') (cfg : Config) (t : Token) :
    (unknownArgument cfg n' t : Out α) = unknownArgument cfg n t := by
  have hc : candidates n' = candidates n := by
    unfold candidates
    have hz := walk_redeclared n h .nil
    generalize n.walk [] = l at hz
    generalize n'.walk [] = m at hz
    induction hz with
    | nil => rfl
    | cons hab _ ih =>
      rw [List.flatMap_cons, List.flatMap_cons, ih]
      congr 1
      rename_i a b _ _ _
      obtain ⟨c, ps⟩ := a
      obtain ⟨d, qs⟩ := b
      obtain ⟨h1, h2⟩ := hab
      simp only at h1 h2 ⊢
      have hd : isRuntimeDisabled (d :: qs) = isRuntimeDisabled (c :: ps) :=
        (zip_any (fun a b hr => by rw [hr.runtimeEnabled]) (Zip.cons h1 h2)).symm
      have ht : qs.dropLast.map Node.tokenType = ps.dropLast.map Node.tokenType :=
        (zip_map_eq (fun a b hr => hr.facts.tokenType) (zip_dropLast h2)).symm
      have hn : d.nameTokens = c.nameTokens := by
        simp only [Node.nameTokens, h1.facts.long, h1.facts.short, h1.facts.none]
      rw [hd, zip_isEmpty h2, ht, hn]
  simp only [unknownArgument, closest, hc]

end

end ArgRouter

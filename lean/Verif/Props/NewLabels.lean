import Verif.Spec.NewLabels
import Verif.Props.Redeclared
import Verif.Props.Final
import Verif.Lemmas.Help

/-!
# Arguments with more labels

C122: new labels for arguments leave old command lines alone.
-/

namespace ArgRouter.Props

open Spec

variable {cfg : Config} {argv : List Bytes} {refs : List NameRef} {p q : List Policy}

/-! ## Policies -/

theorem findSome_unnamed {β : Type} {f : Policy → Option β} (hf : ∀ x, ForNaming x = true → f x = none)
    (p : List Policy) : p.findSome? f = (p.filter fun x => !ForNaming x).findSome? f := by
  induction p with
  | nil => rfl
  | cons x p ih =>
    rw [List.findSome?_cons, List.filter_cons]
    cases h : ForNaming x with
    | true => simp only [hf x h, Bool.not_true, Bool.false_eq_true, if_false]; exact ih
    | false =>
      simp only [Bool.not_false, if_true, List.findSome?_cons]
      rw [ih]

theorem any_unnamed {f : Policy → Bool} (hf : ∀ x, ForNaming x = true → f x = false) (p : List Policy) :
    p.any f = (p.filter fun x => !ForNaming x).any f := by
  induction p with
  | nil => rfl
  | cons x p ih =>
    rw [List.any_cons, List.filter_cons]
    cases h : ForNaming x with
    | true => simp only [hf x h, Bool.not_true, Bool.false_eq_true, if_false, Bool.false_or]; exact ih
    | false =>
      simp only [Bool.not_false, if_true, List.any_cons]
      rw [ih]

theorem filter_unnamed {f : Policy → Bool} (hf : ∀ x, ForNaming x = true → f x = false) (p : List Policy) :
    p.filter f = (p.filter fun x => !ForNaming x).filter f := by
  rw [List.filter_filter]
  congr 1
  funext x
  cases h : ForNaming x with
  | true => simp [hf x h]
  | false => simp

theorem findSome_flagNames {β : Type} {f : Policy → Option β}
    (hf : ∀ x, IsFlagName x = false → f x = none) (p : List Policy) :
    p.findSome? f = (p.filter IsFlagName).findSome? f := by
  induction p with
  | nil => rfl
  | cons x p ih =>
    rw [List.findSome?_cons, List.filter_cons]
    cases h : IsFlagName x with
    | true => simp only [if_true, List.findSome?_cons]; rw [ih]
    | false => simp only [hf x h, Bool.false_eq_true, if_false]; exact ih

theorem _root_.ArgRouter.Spec.NewLabels.findSome (h : NewLabels cfg argv refs p q) {β : Type} {f : Policy → Option β}
    (hf : ∀ x, ForNaming x = true → f x = none) : q.findSome? f = p.findSome? f := by
  rw [findSome_unnamed hf q, findSome_unnamed hf p, h.others]

theorem _root_.ArgRouter.Spec.NewLabels.any (h : NewLabels cfg argv refs p q) {f : Policy → Bool}
    (hf : ∀ x, ForNaming x = true → f x = false) : q.any f = p.any f := by
  rw [any_unnamed hf q, any_unnamed hf p, h.others]

theorem _root_.ArgRouter.Spec.NewLabels.mem (h : NewLabels cfg argv refs p q) {x : Policy} (hx : ForNaming x = false) :
    x ∈ q ↔ x ∈ p := by
  have h1 : ∀ l : List Policy, x ∈ l ↔ x ∈ l.filter fun y => !ForNaming y := by
    intro l
    rw [List.mem_filter]
    simp [hx]
  rw [h1 q, h1 p, h.others]

/-- A list with one policy of each kind has one long name. -/
theorem findSome_once {l : List Policy} (hn : (l.map Policy.kindNo).Nodup) {β : Type}
    {f : Policy → Option β} {k : Nat} (hf : ∀ x v, f x = some v → x.kindNo = k) {x : Policy} {v : β}
    (hx : x ∈ l) (hv : f x = some v) : l.findSome? f = some v := by
  induction l with
  | nil => cases hx
  | cons y l ih =>
    rw [List.map_cons, List.nodup_cons] at hn
    rw [List.findSome?_cons]
    rcases List.mem_cons.1 hx with rfl | hx
    · rw [hv]
    · cases hy : f y with
      | none => exact ih hn.2 hx
      | some w =>
        refine absurd (List.mem_map.2 ⟨x, hx, ?_⟩) hn.1
        rw [hf x v hv, hf y w hy]

theorem longName_given {n : Node} (hn : ((n.policies.filter IsFlagName).map Policy.kindNo).Nodup) (s : Bytes) :
    n.longName = some s ↔ .longName s ∈ n.policies := by
  constructor
  · intro h
    obtain ⟨x, hx, h⟩ := List.exists_of_findSome?_eq_some h
    cases x <;> simp at h
    subst h
    exact hx
  · intro h
    unfold Node.longName
    rw [findSome_flagNames (by intro x hx; cases x <;> simp [IsFlagName] at hx <;> rfl)]
    exact findSome_once hn (k := 0) (by intro x v h; cases x <;> simp at h; rfl)
      (List.mem_filter.2 ⟨h, rfl⟩) rfl

theorem shortName_given {n : Node} (hn : ((n.policies.filter IsFlagName).map Policy.kindNo).Nodup) (s : Bytes) :
    n.shortName = some s ↔ .shortName s ∈ n.policies := by
  constructor
  · intro h
    obtain ⟨x, hx, h⟩ := List.exists_of_findSome?_eq_some h
    cases x <;> simp at h
    subst h
    exact hx
  · intro h
    unfold Node.shortName
    rw [findSome_flagNames (by intro x hx; cases x <;> simp [IsFlagName] at hx <;> rfl)]
    exact findSome_once hn (k := 1) (by intro x v h; cases x <;> simp at h; rfl)
      (List.mem_filter.2 ⟨h, rfl⟩) rfl

theorem _root_.ArgRouter.Spec.NewLabels.before (h : NewLabels cfg argv refs p q) :
    ((p.filter IsFlagName).map Policy.kindNo).Nodup :=
  h.once.sublist (h.kept.map _)

theorem _root_.ArgRouter.Spec.NewLabels.keeps (h : NewLabels cfg argv refs p q) {x : Policy}
    (hx : IsFlagName x = true) (hp : x ∈ p) : x ∈ q :=
  (List.mem_filter.1 (h.kept.subset (List.mem_filter.2 ⟨hp, hx⟩))).1

/-! ## Nodes -/

section
variable {σ : Nat → Nat} {n n' : Node}

local notation "R" => NewLabels cfg argv refs

theorem relabel_long (h : Alike R σ n n') {s : Bytes} (hl : n.longName = some s) :
    n'.longName = some s :=
  (longName_given h.policies.once s).2 (h.policies.keeps rfl ((longName_given h.policies.before s).1 hl))

theorem relabel_short (h : Alike R σ n n') {s : Bytes} (hl : n.shortName = some s) :
    n'.shortName = some s :=
  (shortName_given h.policies.once s).2 (h.policies.keeps rfl ((shortName_given h.policies.before s).1 hl))

theorem relabel_none (h : Alike R σ n n') : n'.noneName = n.noneName :=
  h.policies.findSome (by intro x hx; cases x <;> simp [ForNaming] at hx <;> rfl)

theorem relabel_named (h : Alike R σ n n') : n'.isNamed = n.isNamed := by
  have hflag : ∀ m : Node, (m.longName.isSome || m.shortName.isSome) =
      !(m.policies.filter IsFlagName).isEmpty := by
    intro m
    rw [Bool.eq_iff_iff]
    constructor
    · intro h
      have : ∃ x ∈ m.policies, IsFlagName x = true := by
        rw [Bool.or_eq_true, Option.isSome_iff_exists, Option.isSome_iff_exists] at h
        rcases h with ⟨s, h⟩ | ⟨s, h⟩
        all_goals
          obtain ⟨x, hx, h⟩ := List.exists_of_findSome?_eq_some h
          cases x <;> simp at h
          exact ⟨_, hx, rfl⟩
      obtain ⟨x, hx, hf⟩ := this
      have hm := List.mem_filter.2 ⟨hx, hf⟩
      cases hq : m.policies.filter IsFlagName with
      | nil => rw [hq] at hm; cases hm
      | cons _ _ => rfl
    · intro h
      cases hq : m.policies.filter IsFlagName with
      | nil => rw [hq] at h; cases h
      | cons x l =>
        have hx : x ∈ m.policies.filter IsFlagName := by rw [hq]; exact List.mem_cons_self
        obtain ⟨hx, hf⟩ := List.mem_filter.1 hx
        rw [Bool.or_eq_true]
        cases x <;> simp [IsFlagName] at hf
        · left
          unfold Node.longName
          rw [List.findSome?_isSome_iff]
          exact ⟨_, hx, rfl⟩
        · right
          unfold Node.shortName
          rw [List.findSome?_isSome_iff]
          exact ⟨_, hx, rfl⟩
  rw [Node.isNamed, Node.isNamed, relabel_none h, hflag, hflag]
  rcases h.policies.named with hq | ⟨hq, -⟩
  · rw [hq]
  · have hq' : n'.policies.filter IsFlagName ≠ [] := by
      intro he
      have := h.policies.kept
      rw [he] at this
      exact hq (List.sublist_nil.1 this)
    cases h1 : n.policies.filter IsFlagName with
    | nil => exact absurd h1 hq
    | cons _ _ =>
      cases h2 : n'.policies.filter IsFlagName with
      | nil => exact absurd h2 hq'
      | cons _ _ => rfl

/-- A token that is on the command line labels the same. -/
theorem relabel_spelled (h : Alike R σ n n') (t : Token) (ht : ∀ x ∈ n'.policies, IsFlagName x = true →
      x ∉ n.policies → ¬ IsLabel cfg (.mk .flag 0 0 boolType
        (x :: n'.policies.filter fun y => !ForNaming y) []) t) : IsLabel cfg n' t ↔ IsLabel cfg n t := by
  have hlong : ∀ l, n'.longName = some l → n.longName = some l ∨
      ∃ m : Node, m.longName = some l ∧ ¬ IsLabel cfg m t := by
    intro l hl
    by_cases hm : .longName l ∈ n.policies
    · exact .inl ((longName_given h.policies.before l).2 hm)
    · exact .inr ⟨_, rfl, ht _ ((longName_given h.policies.once l).1 hl) rfl hm⟩
  have hshort : ∀ l, n'.shortName = some l → n.shortName = some l ∨
      ∃ m : Node, m.shortName = some l ∧ ¬ IsLabel cfg m t := by
    intro l hl
    by_cases hm : .shortName l ∈ n.policies
    · exact .inl ((shortName_given h.policies.before l).2 hm)
    · exact .inr ⟨_, rfl, ht _ ((shortName_given h.policies.once l).1 hl) rfl hm⟩
  have hsame : ∀ s, n.noneName = some s → n'.longName = n.longName ∧ n'.shortName = n.shortName := by
    intro s hs
    rcases h.policies.named with hq | ⟨-, hq⟩
    · have hf : ∀ {β : Type} (f : Policy → Option β) (hf : ∀ x, IsFlagName x = false → f x = none),
          n'.policies.findSome? f = n.policies.findSome? f := by
        intro β f hf
        rw [findSome_flagNames hf n'.policies, findSome_flagNames hf n.policies, hq]
      exact ⟨hf _ (by intro x hx; cases x <;> simp [IsFlagName] at hx <;> rfl),
        hf _ (by intro x hx; cases x <;> simp [IsFlagName] at hx <;> rfl)⟩
    · obtain ⟨x, hx, hs⟩ := List.exists_of_findSome?_eq_some hs
      cases x <;> simp at hs
      exact absurd hx (hq _)
  obtain ⟨pre, name⟩ := t
  cases pre with
  | long =>
    constructor
    · intro hl
      rcases hlong _ hl with h1 | ⟨m, h1, h2⟩
      · exact h1
      · exact absurd h1 h2
    · exact fun hl => relabel_long h hl
  | short =>
    constructor
    · intro hl
      rcases hshort _ hl with h1 | ⟨m, h1, h2⟩
      · exact h1
      · exact absurd h1 h2
    · exact fun hl => relabel_short h hl
  | none =>
    constructor
    · rintro (⟨l, h1, h2⟩ | ⟨l, h1, h2⟩ | ⟨h1, h2, h3⟩)
      · rcases hlong _ h1 with h3 | ⟨m, h3, h4⟩
        · exact .inl ⟨l, h3, h2⟩
        · exact absurd (.inl ⟨l, h3, h2⟩) h4
      · rcases hshort _ h1 with h3 | ⟨m, h3, h4⟩
        · exact .inr (.inl ⟨l, h3, h2⟩)
        · exact absurd (.inr (.inl ⟨l, h3, h2⟩)) h4
      · rw [relabel_none h] at h1
        obtain ⟨h4, h5⟩ := hsame _ h1
        rw [h4] at h2
        rw [h5] at h3
        exact .inr (.inr ⟨h1, h2, h3⟩)
    · rintro (⟨l, h1, h2⟩ | ⟨l, h1, h2⟩ | ⟨h1, h2, h3⟩)
      · exact .inl ⟨l, relabel_long h h1, h2⟩
      · exact .inr (.inl ⟨l, relabel_short h h1, h2⟩)
      · obtain ⟨h4, h5⟩ := hsame _ h1
        refine .inr (.inr ⟨(relabel_none h).trans h1, ?_, ?_⟩)
        · rwa [h4]
        · rwa [h5]

theorem relabel_declared (h : Alike R σ n n') (sh : Shape) : Declared n' sh ↔ Declared n sh := by
  have hm : n'.policies.filter Policy.matters = n.policies.filter Policy.matters := by
    rw [filter_unnamed (by intro x hx; cases x <;> simp [ForNaming] at hx <;> rfl) n'.policies,
      filter_unnamed (by intro x hx; cases x <;> simp [ForNaming] at hx <;> rfl) n.policies, h.policies.others]
  have hc : n'.minMaxCount = n.minMaxCount :=
    h.policies.findSome (by intro x hx; cases x <;> simp [ForNaming] at hx <;> rfl)
  have hr : n'.hasRouter = n.hasRouter :=
    h.policies.any (by intro x hx; cases x <;> simp [ForNaming] at hx <;> rfl)
  constructor
  · rintro ⟨h1, h2, h3, h4, h5, h6, h7, h8⟩
    rw [MatchPolicies, hm] at h1
    rw [h.kind] at h2
    rw [relabel_named h, relabel_none h] at h4
    rw [relabel_named h] at h5 h6 h7
    rw [relabel_named h, hc, hr] at h8
    exact ⟨h1, h2, h3, h4, h5, h6, h7, h8⟩
  · rintro ⟨h1, h2, h3, h4, h5, h6, h7, h8⟩
    rw [MatchPolicies, ← hm] at h1
    rw [← h.kind] at h2
    rw [← relabel_named h, ← relabel_none h] at h4
    rw [← relabel_named h] at h5 h6 h7
    rw [← relabel_named h, ← hc, ← hr] at h8
    exact ⟨h1, h2, h3, h4, h5, h6, h7, h8⟩

/-- The same tokens are labels, with the same tokens after them. -/
theorem relabel_labels (h : Alike R σ n n') {sh : Shape} (hd : Declared n sh) {t : Token}
    (ht : Arises cfg argv t) (rest follows : List Token) :
    Labels cfg n' sh t rest follows ↔ Labels cfg n sh t rest follows := by
  have hd' := (relabel_declared h sh).2 hd
  have hlabel : IsLabel cfg n' t ↔ IsLabel cfg n t :=
    relabel_spelled h t fun x hx hf hn hl => h.policies.untyped x hx hf hn t ht (.inl hl)
  have hsep : ∀ {ch : UInt8} {l v : Bytes}, sh.separator = some ch → t.name = l ++ ch :: v →
      (IsLabel cfg n' ⟨t.pre, l⟩ ↔ IsLabel cfg n ⟨t.pre, l⟩) := by
    intro ch l v hs hn
    refine relabel_spelled h _ fun x hx hf hnx hl => h.policies.untyped x hx hf hnx t ht ?_
    refine .inr (.inl ⟨l, ch, v, hn, ?_, hl⟩)
    refine List.mem_cons_of_mem _ (List.mem_filter.2 ⟨?_, rfl⟩)
    exact (List.mem_filter.1 (hd'.policies.mem_iff.2 (by simp [Shape.policies, hs]))).1
  have hcol : ∀ {x g : Bytes} {gs : List Bytes}, sh.expands = true → ShortText cfg t x →
      Utf8.graphemes x = .ok (g :: gs) → (n'.shortName = some g ↔ n.shortName = some g) := by
    intro x g gs he hx hg
    refine ⟨fun hn => ?_, relabel_short h⟩
    by_cases hm : .shortName g ∈ n.policies
    · exact (shortName_given h.policies.before g).2 hm
    · refine absurd ?_ (h.policies.untyped _ ((shortName_given h.policies.once g).1 hn) rfl hm t ht)
      refine .inr (.inr ⟨x, g, gs, ?_, hx, hg, rfl⟩)
      refine List.mem_cons_of_mem _ (List.mem_filter.2 ⟨?_, rfl⟩)
      exact (List.mem_filter.1 (hd'.policies.mem_iff.2 (by simp [Shape.policies, he]))).1
  constructor
  · intro hl
    cases hl with
    | label hs hl => exact .label hs (hlabel.1 hl)
    | collapsed he hx hg hn => exact .collapsed he hx hg ((hcol he hx hg).1 hn)
    | separated hs hn hc hv hl => exact .separated hs hn hc hv ((hsep hs hn).1 hl)
    | positional hn => exact .positional ((relabel_named h).symm.trans hn)
  · intro hl
    cases hl with
    | label hs hl => exact .label hs (hlabel.2 hl)
    | collapsed he hx hg hn => exact .collapsed he hx hg ((hcol he hx hg).2 hn)
    | separated hs hn hc hv hl => exact .separated hs hn hc hv ((hsep hs hn).2 hl)
    | positional hn => exact .positional ((relabel_named h).trans hn)

end

/-! ## Trees -/

theorem zip_mem {α β : Type} {S : α → β → Prop} {l : List α} {m : List β} (h : Zip S l m) :
    Zip (fun a b => a ∈ l ∧ b ∈ m ∧ S a b) l m := by
  induction h with
  | nil => exact .nil
  | @cons x y l m h1 _ ih =>
    have := zip_map (f := id) (g := id) (S := fun a b => a ∈ x :: l ∧ b ∈ y :: m ∧ S a b)
      (fun a b h => ⟨List.mem_cons_of_mem _ h.1, List.mem_cons_of_mem _ h.2.1, h.2.2⟩) ih
    rw [List.map_id, List.map_id] at this
    exact .cons ⟨List.mem_cons_self, List.mem_cons_self, h1⟩ this

theorem zip_imp {α β : Type} {S T : α → β → Prop} {l : List α} {m : List β} (h : Zip S l m)
    (hi : ∀ a ∈ l, ∀ b ∈ m, S a b → T a b) : Zip T l m := by
  have := zip_map (f := id) (g := id) (S := T) (fun a b h => hi a h.1 b h.2.1 h.2.2) (zip_mem h)
  rwa [List.map_id, List.map_id] at this

theorem zip_split {α β : Type} {S : α → β → Prop} {pre post : List α} {a : α} {m : List β}
    (h : Zip S (pre ++ a :: post) m) :
    ∃ pre' b post', m = pre' ++ b :: post' ∧ Zip S pre pre' ∧ S a b ∧ Zip S post post' := by
  induction pre generalizing m with
  | nil =>
    cases h with
    | cons h1 h2 => exact ⟨[], _, _, rfl, .nil, h1, h2⟩
  | cons x pre ih =>
    cases h with
    | cons h1 h2 =>
      obtain ⟨pre', b, post', rfl, h3, h4, h5⟩ := ih h2
      exact ⟨_ :: pre', b, post', rfl, .cons h1 h3, h4, h5⟩

/-- Two lists of policies, where only names nobody refers to are new, have the same of the others. -/
theorem filterMap_kept_names {l m : List Policy} {β : Type} {f : Policy → Option β} (h : l.Sublist m)
    (hn : m.Nodup) (hf : ∀ x ∈ m, x ∈ l ∨ f x = none) : m.filterMap f = l.filterMap f := by
  induction h with
  | slnil => rfl
  | @cons l m a hs ih =>
    rw [List.nodup_cons] at hn
    have ha : f a = none := by
      rcases hf a List.mem_cons_self with h | h
      · exact absurd (hs.subset h) hn.1
      · exact h
    rw [List.filterMap_cons_none ha]
    exact ih hn.2 fun x hx => hf x (List.mem_cons_of_mem _ hx)
  | @cons_cons l m a hs ih =>
    rw [List.nodup_cons] at hn
    have := ih hn.2 fun x hx => by
      rcases hf x (List.mem_cons_of_mem _ hx) with h | h
      · rcases List.mem_cons.1 h with rfl | h
        · exact absurd hx hn.1
        · exact .inl h
      · exact .inr h
    rw [List.filterMap_cons, List.filterMap_cons, this]

section
variable {σ : Nat → Nat} {n n' : Node}

local notation "R" => NewLabels cfg argv refs

/-- The name in the policy, if it is one of these. -/
def refIn (rs : List NameRef) : Policy → Option NameRef
  | .longName s => if rs.contains (.long s) then some (.long s) else none
  | .shortName s => if rs.contains (.short s) then some (.short s) else none
  | _ => none

theorem nameRefs_in (rs : List NameRef) (n : Node) :
    n.nameRefs.filter (rs.contains ·) = (n.policies.filter IsFlagName).filterMap (refIn rs) := by
  unfold Node.nameRefs
  induction n.policies with
  | nil => rfl
  | cons x p ih =>
    cases x with
    | longName s =>
      rw [List.filter_cons_of_pos (by rfl), List.filterMap_cons_some (by rfl), List.filter_cons,
        List.filterMap_cons, ih, refIn]
      cases rs.contains (.long s) <;> simp
    | shortName s =>
      rw [List.filter_cons_of_pos (by rfl), List.filterMap_cons_some (by rfl), List.filter_cons,
        List.filterMap_cons, ih, refIn]
      cases rs.contains (.short s) <;> simp
    | _ => exact ih

theorem relabel_refs (h : Alike R σ n n') {rs : List NameRef} (hs : ∀ r ∈ rs, r ∈ refs) :
    n'.nameRefs.filter (rs.contains ·) = n.nameRefs.filter (rs.contains ·) := by
  have hk := h.policies
  rw [nameRefs_in, nameRefs_in]
  refine filterMap_kept_names hk.kept ?_ ?_
  · have := hk.once
    rw [List.Nodup, List.pairwise_map] at this
    exact this.imp fun {a c} hne he => hne (by rw [he])
  · intro x hx
    obtain ⟨hx, hf⟩ := List.mem_filter.1 hx
    by_cases hp : x ∈ n.policies
    · exact .inl (List.mem_filter.2 ⟨hp, hf⟩)
    · right
      cases x <;> simp [IsFlagName] at hf
      · have hm := hk.unreferred.1 _ hx hp
        rw [refIn, if_neg]
        rw [List.contains_iff_mem]
        exact fun hc => hm (hs _ hc)
      · have hm := hk.unreferred.2 _ hx hp
        rw [refIn, if_neg]
        rw [List.contains_iff_mem]
        exact fun hc => hm (hs _ hc)

mutual
theorem owners_relabel {rs : List NameRef} (hs : ∀ r ∈ rs, r ∈ refs) : ∀ (n : Node) {n' : Node},
    Alike R σ n n' → Zip (Alike R σ) (n.owners rs) (n'.owners rs)
  | .mk k u h v p cs, n', hr => by
    have hr' := hr
    cases hr with
    | mk hp hc =>
      rw [Node.owners, Node.owners]
      refine zip_append (ownersList_relabel hs cs hc) (zip_const hr' ?_)
      rw [relabel_refs hr' hs]
theorem ownersList_relabel {rs : List NameRef} (hs : ∀ r ∈ rs, r ∈ refs) : ∀ (cs : List Node)
    {ds : List Node}, AlikeAll R σ cs ds →
    Zip (Alike R σ) (Node.ownersList rs cs) (Node.ownersList rs ds)
  | [], ds, hr => by
    cases hr
    rw [Node.ownersList]
    exact .nil
  | c :: cs, ds, hr => by
    cases hr with
    | cons h1 h2 =>
      rw [Node.ownersList, Node.ownersList]
      exact zip_append (owners_relabel hs c h1) (ownersList_relabel hs cs h2)
end

mutual
theorem nodes_relabel {P : List Policy → List Policy → Prop} : ∀ (n : Node) {n' : Node}, Alike P σ n n' →
    Zip (Alike P σ) n.nodes n'.nodes
  | .mk k u h v p cs, n', hr => by
    have hr' := hr
    cases hr with
    | mk hp hc =>
      rw [nodes_mk, nodes_mk]
      exact .cons hr' (nodesList_relabel cs hc)
theorem nodesList_relabel {P : List Policy → List Policy → Prop} : ∀ (cs : List Node) {ds : List Node},
    AlikeAll P σ cs ds → Zip (Alike P σ) (nodesList cs) (nodesList ds)
  | [], ds, hr => by
    cases hr
    exact .nil
  | c :: cs, ds, hr => by
    cases hr with
    | cons h1 h2 =>
      rw [nodesList, nodesList, List.flatMap_cons, List.flatMap_cons]
      exact zip_append (nodes_relabel c h1) (nodesList_relabel cs h2)
end

theorem namedNodes_relabel {rs : List NameRef} (hs : ∀ r ∈ rs, r ∈ refs) (h : Alike R σ n n') :
    Zip (Alike R σ) (namedNodes n rs) (namedNodes n' rs) := by
  refine zip_filter (fun a b hab => ?_) (nodes_relabel n h)
  have key : ∀ x : Node, (x.nameRefs.any fun r => rs.contains r) =
      !(x.nameRefs.filter (rs.contains ·)).isEmpty := by
    intro x
    induction x.nameRefs with
    | nil => rfl
    | cons r l ih =>
      rw [List.any_cons, List.filter_cons, ih]
      cases rs.contains r <;> rfl
  rw [key, key, relabel_refs hab hs]

mutual
theorem leaves_relabel {P : List Policy → List Policy → Prop} : ∀ (n : Node) {n' : Node}, Alike P σ n n' →
    Zip (Alike P σ) (leaves n) (leaves n')
  | .mk k u h v p cs, n', hr => by
    have hr' := hr
    cases hr with
    | mk hp hc =>
      rw [leaves, leaves]
      split
      · exact leavesList_relabel cs hc
      · exact .cons hr' .nil
theorem leavesList_relabel {P : List Policy → List Policy → Prop} : ∀ (cs : List Node) {ds : List Node},
    AlikeAll P σ cs ds → Zip (Alike P σ) (leavesList cs) (leavesList ds)
  | [], ds, hr => by
    cases hr
    rw [leavesList]
    exact .nil
  | c :: cs, ds, hr => by
    cases hr with
    | cons h1 h2 =>
      rw [leavesList, leavesList]
      exact zip_append (leaves_relabel c h1) (leavesList_relabel cs h2)
end

theorem argumentsFrom_relabel {P : List Policy → List Policy → Prop} {cs ds : List Node}
    (h : Zip (Alike P σ) cs ds) (i : Nat) :
    Zip (fun a a' => a.1 = a'.1 ∧ Alike P σ a.2 a'.2) (argumentsFrom i cs) (argumentsFrom i ds) := by
  induction h generalizing i with
  | nil => exact .nil
  | @cons c d cs ds h1 _ ih =>
    rw [argumentsFrom, argumentsFrom, h1.kind]
    refine zip_append ?_ (ih _)
    split
    · exact .nil
    · rw [members, members, h1.kind]
      split
      · exact zip_map (fun a b h => ⟨rfl, h⟩) h1.children
      · exact zip_map (fun a b h => ⟨rfl, h⟩) (leaves_relabel c h1)

end

/-! ## Reading -/

section
variable {σ : Nat → Nat} {mode mode' : Node}

/-- The two nodes are the same object in the two modes. -/
def Pair (cfg : Config) (argv : List Bytes) (σ : Nat → Nat) (mode mode' x x' : Node) : Prop :=
  x ∈ mode.nodes ∧ x' ∈ mode'.nodes ∧ Alike (NewLabels cfg argv (references mode)) σ x x'

local notation "Pr" => Pair cfg argv σ mode mode'

/-- The same uses. -/
def UsePair (cfg : Config) (argv : List Bytes) (σ : Nat → Nat) (mode mode' : Node) (l l' : Leaf) : Prop :=
  Pair cfg argv σ mode mode' l.node l'.node ∧ l.tokens = l'.tokens

local notation "Us" => UsePair cfg argv σ mode mode'

theorem pair_token {x x' : Node} (h : Pr x x') : SameToken mode mode' x.tokenType x'.tokenType :=
  .inr ⟨x, h.1, x', h.2.1, h.2.2.uid.symm, rfl, rfl⟩

theorem pair_arguments (hm : MoreLabels cfg argv σ mode mode') :
    Zip (fun a a' => a.1 = a'.1 ∧ Pr a.2 a'.2) (arguments mode) (arguments mode') :=
  zip_imp (argumentsFrom_relabel hm.children 0) fun _ ha _ hb h =>
    ⟨h.1, arguments_nodes ha, arguments_nodes hb, h.2⟩

/-- All names the argument refers to are references of the mode. -/
theorem refs_mem {c : Node} (hc : c ∈ mode.nodes) {sh : Shape} (hd : Declared c sh)
    {rs : List NameRef} (hr : sh.needs = some rs ∨ sh.aliasOf = some rs) :
    ∀ r ∈ rs, r ∈ references mode := by
  intro r hin
  refine List.mem_flatMap.2 ⟨c, hc, List.mem_flatMap.2 ?_⟩
  rcases hr with hr | hr
  · refine ⟨.dependent rs, ?_, hin⟩
    exact (List.mem_filter.1 (hd.policies.mem_iff.2 (by simp [Shape.policies, hr]))).1
  · refine ⟨.alias rs, ?_, hin⟩
    exact (List.mem_filter.1 (hd.policies.mem_iff.2 (by simp [Shape.policies, hr]))).1

theorem relabel_seen (hσ : ∀ a b, σ a = σ b → a = b) (hm : MoreLabels cfg argv σ mode mode')
    {sofar sofar' : List Leaf} (hs : Zip Us sofar sofar') {x x' : Node}
    (hx : Alike (NewLabels cfg argv (references mode)) σ x x') :
    Spec.Seen ⟨mode', [], sofar'⟩ x' ↔ Spec.Seen ⟨mode, [], sofar⟩ x := by
  have hh : ∀ {a a' : Node}, Alike (NewLabels cfg argv (references mode)) σ a a' →
      (a'.hash = x'.hash ↔ a.hash = x.hash) := by
    intro a a' ha
    rw [ha.hash, hx.hash]
    exact ⟨hσ _ _, fun h => by rw [h]⟩
  constructor
  · rintro (h | ⟨l', hl', h⟩)
    · exact .inl ((hh hm).1 h)
    · obtain ⟨l, hl, hp⟩ := hs.mem_right hl'
      exact .inr ⟨l, hl, (hh hp.1.2.2).1 h⟩
  · rintro (h | ⟨l, hl, h⟩)
    · exact .inl ((hh hm).2 h)
    · obtain ⟨l', hl', hp⟩ := hs.symm.mem_right hl
      exact .inr ⟨l', hl', (hh hp.1.2.2).2 h⟩

theorem relabel_lacks (hσ : ∀ a b, σ a = σ b → a = b) (hm : MoreLabels cfg argv σ mode mode')
    {sofar sofar' : List Leaf} (hs : Zip Us sofar sofar') {c d : Node} (hc : c ∈ mode.nodes)
    {sh : Shape} (hd : Declared c sh) (hl : Lacks mode sofar sh d) :
    ∃ d', Pr d d' ∧ Lacks mode' sofar' sh d' := by
  obtain ⟨rs, pre, post, h1, h2, h3, h4⟩ := hl
  have hz := owners_relabel (refs_mem hc hd (.inl h1)) mode hm
  rw [h2] at hz
  obtain ⟨pre', d', post', h5, h6, h7, -⟩ := zip_split hz
  refine ⟨d', ⟨?_, ?_, h7⟩, rs, pre', post', h1, h5, ?_, fun h => h4 ((relabel_seen hσ hm hs h7).1 h)⟩
  · exact ((mem_owners rs d mode).1 (by rw [h2]; simp)).1
  · exact ((mem_owners rs d' mode').1 (by rw [h5]; simp)).1
  · intro x' hx'
    obtain ⟨x, hx, hp⟩ := h6.mem_right hx'
    exact (relabel_seen hσ hm hs hp).2 (h3 x hx)

theorem relabel_lacks_back (hσ : ∀ a b, σ a = σ b → a = b) (hm : MoreLabels cfg argv σ mode mode')
    {sofar sofar' : List Leaf} (hs : Zip Us sofar sofar') {c d' : Node} (hc : c ∈ mode.nodes)
    {sh : Shape} (hd : Declared c sh) (hl : Lacks mode' sofar' sh d') :
    ∃ d, Lacks mode sofar sh d := by
  obtain ⟨rs, pre', post', h1, h2, h3, h4⟩ := hl
  have hz := (owners_relabel (refs_mem hc hd (.inl h1)) mode hm).symm
  rw [h2] at hz
  obtain ⟨pre, d, post, h5, h6, h7, -⟩ := zip_split hz
  refine ⟨d, rs, pre, post, h1, h5, ?_, fun h => h4 ((relabel_seen hσ hm hs h7).2 h)⟩
  intro x hx
  obtain ⟨x', hx', hp⟩ := h6.mem_right hx
  exact (relabel_seen hσ hm hs hp).1 (h3 x' hx')

/-- Errors for the same reason. -/
def ExcPair (mode mode' : Node) (e e' : Exc) : Prop :=
  e.ec = e'.ec ∧ Zip (SameToken mode mode') e.tokens e'.tokens

theorem relabel_values {c c' : Node} (h : Pr c c') (sh : Shape) (follows : List Token) :
    (∃ x, sh.values c follows = .ok x ∧ sh.values c' follows = .ok x) ∨
    ∃ e e', sh.values c follows = .error e ∧ sh.values c' follows = .error e' ∧ ExcPair mode mode' e e' := by
  have hp : ∀ ec, ExcPair mode mode' ⟨ec, [c.tokenType]⟩ ⟨ec, [c'.tokenType]⟩ :=
    fun _ => ⟨rfl, .cons (pair_token h) .nil⟩
  unfold Shape.values
  split
  · split
    · exact .inr ⟨_, _, rfl, rfl, hp _⟩
    · exact .inl ⟨_, rfl, rfl⟩
  · split
    · exact .inr ⟨_, _, rfl, rfl, hp _⟩
    · split
      · exact .inr ⟨_, _, rfl, rfl, hp _⟩
      · exact .inl ⟨_, rfl, rfl⟩

theorem relabel_uses (hm : MoreLabels cfg argv σ mode mode') {c c' : Node} (h : Pr c c') {sh : Shape}
    (hd : Declared c sh) (vs : List Token) :
    Zip Us (sh.uses mode c vs) (sh.uses mode' c' vs) := by
  unfold Shape.uses
  split
  · exact .cons ⟨h, rfl⟩ .nil
  · rename_i rs hr
    refine zip_map (R := Pr) (fun a b hab => ⟨hab, rfl⟩) ?_
    refine zip_imp (namedNodes_relabel (refs_mem h.1 hd (.inr hr)) hm) fun a ha b hb hab => ⟨?_, ?_, hab⟩
    · exact (List.mem_filter.1 ha).1
    · exact (List.mem_filter.1 hb).1

/-- Claims that are the same. -/
inductive ClaimPair (cfg : Config) (argv : List Bytes) (σ : Nat → Nat) (mode mode' : Node) : Claim → Claim → Prop
  | takes {uses uses' : List Leaf} (left : List Token) (h : Zip (UsePair cfg argv σ mode mode') uses uses') :
      ClaimPair cfg argv σ mode mode' (.takes uses left) (.takes uses' left)
  | refuses {e e' : Exc} (h : ExcPair mode mode' e e') :
      ClaimPair cfg argv σ mode mode' (.refuses e) (.refuses e')

theorem relabel_isLabel {c c' : Node} (h : Alike (NewLabels cfg argv refs) σ c c') {t : Token}
    (ht : Arises cfg argv t) : IsLabel cfg c' t ↔ IsLabel cfg c t :=
  relabel_spelled h t fun x hx hf hn hl => h.policies.untyped x hx hf hn t ht (.inl hl)

theorem relabel_claims (hσ : ∀ a b, σ a = σ b → a = b) (hm : MoreLabels cfg argv σ mode mode')
    {sofar sofar' : List Leaf} (hs : Zip Us sofar sofar') {c c' : Node} (h : Pr c c') {t : Token}
    (ht : Arises cfg argv t) {rest : List Token} {cl : Claim} (hc : Claims cfg mode sofar c t rest cl) :
    ∃ cl', ClaimPair cfg argv σ mode mode' cl cl' ∧ Claims cfg mode' sofar' c' t rest cl' := by
  obtain ⟨sh, hd, hc⟩ := hc
  have hd' := (relabel_declared h.2.2 sh).2 hd
  have hlab := fun follows => relabel_labels h.2.2 hd ht rest follows
  cases hc with
  | noSeparator h1 h2 h3 =>
    exact ⟨.refuses ⟨_, [c'.tokenType]⟩, .refuses ⟨rfl, .cons (pair_token h) .nil⟩, sh, hd',
      .noSeparator h1 h2 ((relabel_isLabel h.2.2 ht).2 h3)⟩
  | @count follows e h1 h2 =>
    rcases relabel_values h sh follows with ⟨x, h3, -⟩ | ⟨e1, e2, h3, h4, h5⟩
    · exact nomatch h2.symm.trans h3
    · cases h2.symm.trans h3
      exact ⟨_, .refuses h5, sh, hd', .count ((hlab _).2 h1) h4⟩
  | @lacks follows vs left d h1 h2 h3 =>
    rcases relabel_values h sh follows with ⟨x, h4, h5⟩ | ⟨e1, e2, h4, -⟩
    · cases h2.symm.trans h4
      obtain ⟨d', h6, h7⟩ := relabel_lacks hσ hm hs h.1 hd h3
      exact ⟨.refuses ⟨_, [d'.tokenType]⟩, .refuses ⟨rfl, .cons (pair_token h6) .nil⟩, sh, hd', .lacks ((hlab _).2 h1) h5 h7⟩
    · exact nomatch h2.symm.trans h4
  | @takes follows vs left h1 h2 h3 =>
    rcases relabel_values h sh follows with ⟨x, h4, h5⟩ | ⟨e1, e2, h4, -⟩
    · cases h2.symm.trans h4
      refine ⟨_, .takes left (relabel_uses hm h hd vs), sh, hd', .takes ((hlab _).2 h1) h5 ?_⟩
      intro d' hd'
      obtain ⟨d, h6⟩ := relabel_lacks_back hσ hm hs h.1 hd hd'
      exact h3 d h6
    · exact nomatch h2.symm.trans h4

theorem relabel_claimed {sofar sofar' : List Leaf} {c c' : Node}
    (h : Pr c c') {t : Token} (ht : Arises cfg argv t) {rest : List Token} {cl' : Claim}
    (hc : Claims cfg mode' sofar' c' t rest cl') : ∃ cl, Claims cfg mode sofar c t rest cl := by
  obtain ⟨sh, hd', hc⟩ := hc
  have hd := (relabel_declared h.2.2 sh).1 hd'
  have hlab := fun follows => relabel_labels h.2.2 hd ht rest follows
  have key : ∀ {follows}, Labels cfg c' sh t rest follows → ∃ cl, Claims cfg mode sofar c t rest cl := by
    intro follows hl
    obtain ⟨cl, hcl⟩ := labels_claims (mode := mode) (sofar := sofar) ((hlab _).1 hl)
    exact ⟨cl, sh, hd, hcl⟩
  cases hc with
  | noSeparator h1 h2 h3 => exact ⟨_, sh, hd, .noSeparator h1 h2 ((relabel_isLabel h.2.2 ht).1 h3)⟩
  | count h1 _ => exact key h1
  | lacks h1 _ _ => exact key h1
  | takes h1 _ _ => exact key h1

theorem relabel_multi {c c' : Node} (h : Alike (NewLabels cfg argv refs) σ c c') :
    c'.isMultiStage = c.isMultiStage :=
  h.policies.any (by intro x hx; cases x <;> simp [ForNaming] at hx <;> rfl)

theorem relabel_available {used : List Nat} {a a' : Nat × Node} (h : a.1 = a'.1 ∧ Pr a.2 a'.2) :
    Available used a' ↔ Available used a := by
  rw [Available, Available, ← h.1, relabel_multi h.2.2.2]

theorem relabel_wants (hσ : ∀ a b, σ a = σ b → a = b) (hm : MoreLabels cfg argv σ mode mode')
    {sofar sofar' : List Leaf} (hs : Zip Us sofar sofar') {t : Token} (ht : Arises cfg argv t)
    {rest : List Token} {used : List Nat} {a a' : Nat × Node} (h : a.1 = a'.1 ∧ Pr a.2 a'.2) :
    Wants cfg mode' sofar' used t rest a' ↔ Wants cfg mode sofar used t rest a := by
  rw [Wants, Wants, relabel_available h, relabel_named h.2.2.2]
  constructor
  · rintro ⟨⟨cl, h1⟩, h2⟩
    exact ⟨relabel_claimed h.2 ht h1, h2⟩
  · rintro ⟨⟨cl, h1⟩, h2⟩
    obtain ⟨cl', -, h3⟩ := relabel_claims hσ hm hs h.2 ht h1
    exact ⟨⟨cl', h3⟩, h2⟩

theorem relabel_first (hσ : ∀ a b, σ a = σ b → a = b) (hm : MoreLabels cfg argv σ mode mode')
    {sofar sofar' : List Leaf} (hs : Zip Us sofar sofar') {t : Token} (ht : Arises cfg argv t)
    {rest : List Token} {used : List Nat} {a : Nat × Node} (hf : First cfg mode sofar used t rest a) :
    ∃ a', (a.1 = a'.1 ∧ Pr a.2 a'.2) ∧ First cfg mode' sofar' used t rest a' := by
  obtain ⟨before, after, h1, h2, h3⟩ := hf
  have hz := pair_arguments hm
  rw [h1] at hz
  obtain ⟨before', a', after', h4, h5, h6, -⟩ := zip_split hz
  refine ⟨a', h6, before', after', h4, ?_, (relabel_wants hσ hm hs ht h6).2 h3⟩
  intro x' hx' hw
  obtain ⟨x, hx, hp⟩ := h5.mem_right hx'
  exact h2 x hx ((relabel_wants hσ hm hs ht hp).1 hw)

theorem relabel_nobody (hσ : ∀ a b, σ a = σ b → a = b) (hm : MoreLabels cfg argv σ mode mode')
    {sofar sofar' : List Leaf} (hs : Zip Us sofar sofar') {t : Token} (ht : Arises cfg argv t)
    {rest : List Token} {used : List Nat}
    (hn : ∀ a ∈ arguments mode, ¬ Wants cfg mode sofar used t rest a) :
    ∀ a ∈ arguments mode', ¬ Wants cfg mode' sofar' used t rest a := by
  intro a' ha' hw
  obtain ⟨a, ha, hp⟩ := (pair_arguments hm).mem_right ha'
  exact hn a ha ((relabel_wants hσ hm hs ht hp).1 hw)

/-- The choices with the new types. -/
def renamed (σ : Nat → Nat) (ch : Choices) : Choices := ch.map fun x => (x.1, σ x.2)

theorem lookup_renamed (ch : Choices) (u : Nat) :
    (renamed σ ch).lookup u = (ch.lookup u).map σ := by
  induction ch with
  | nil => rfl
  | cons x l ih =>
    rw [renamed, List.map_cons, List.lookup_cons, List.lookup_cons]
    split
    · rfl
    · exact ih

theorem zip_getElem {α β : Type} {S : α → β → Prop} {l : List α} {m : List β} (h : Zip S l m) (i : Nat) :
    OptRel S l[i]? m[i]? := by
  induction h generalizing i with
  | nil => exact .none
  | cons h1 _ ih =>
    cases i with
    | zero => exact .some h1
    | succ i => simpa using ih i

theorem relabel_oneOfAt (hm : MoreLabels cfg argv σ mode mode') {a a' : Nat × Node} (h : a.1 = a'.1) :
    OptRel Pr (oneOfAt mode a) (oneOfAt mode' a') := by
  have hz : Zip Pr mode.children mode'.children :=
    zip_imp hm.children fun x hx y hy hxy =>
      ⟨child_mem_nodes hx _ (self_mem_nodes _), child_mem_nodes hy _ (self_mem_nodes _), hxy⟩
  rw [oneOfAt, oneOfAt, ← h]
  have := zip_getElem hz a.1
  generalize mode.children[a.1]? = o at this
  generalize mode'.children[a.1]? = o' at this
  cases this with
  | none => exact .none
  | @some x y hxy =>
    rw [Option.filter_some, Option.filter_some, hxy.2.2.kind]
    split
    · exact .some hxy
    · exact .none

theorem relabel_clashes (hσ : ∀ a b, σ a = σ b → a = b) (hm : MoreLabels cfg argv σ mode mode')
    {ch : Choices} {a a' : Nat × Node} (h : a.1 = a'.1 ∧ Pr a.2 a'.2) {o : Node}
    (hc : Clashes mode ch a o) : ∃ o', Pr o o' ∧ Clashes mode' (renamed σ ch) a' o' := by
  obtain ⟨h1, k, h2, h3⟩ := hc
  have ho := relabel_oneOfAt hm h.1
  rw [h1] at ho
  generalize hx : oneOfAt mode' a' = x at ho
  cases ho with
  | @some _ o' hp =>
    refine ⟨o', hp, hx, σ k, ?_, ?_⟩
    · rw [lookup_renamed, hp.2.2.uid, h2]; rfl
    · rw [h.2.2.2.hash]
      exact fun e => h3 (hσ _ _ e)

theorem relabel_clashed (hm : MoreLabels cfg argv σ mode mode')
    {ch : Choices} {a a' : Nat × Node} (h : a.1 = a'.1 ∧ Pr a.2 a'.2) {o' : Node}
    (hc : Clashes mode' (renamed σ ch) a' o') : ∃ o, Clashes mode ch a o := by
  obtain ⟨h1, k, h2, h3⟩ := hc
  have ho := relabel_oneOfAt hm h.1
  rw [h1] at ho
  generalize hx : oneOfAt mode a = x at ho
  cases ho with
  | @some o _ hp =>
    rw [lookup_renamed, hp.2.2.uid] at h2
    cases hl : ch.lookup o.uid with
    | none => rw [hl] at h2; cases h2
    | some j =>
      rw [hl] at h2
      cases h2
      refine ⟨o, hx, j, hl, fun e => h3 ?_⟩
      rw [h.2.2.2.hash, e]

theorem relabel_choose (hm : MoreLabels cfg argv σ mode mode') (ch : Choices) {a a' : Nat × Node}
    (h : a.1 = a'.1 ∧ Pr a.2 a'.2) : choose mode' (renamed σ ch) a' = renamed σ (choose mode ch a) := by
  have ho := relabel_oneOfAt hm h.1
  unfold choose
  generalize oneOfAt mode a = x at ho
  generalize oneOfAt mode' a' = y at ho
  cases ho with
  | none => rfl
  | @some o o' hp =>
    simp only [lookup_renamed, hp.2.2.uid]
    cases ch.lookup o.uid with
    | some _ => rfl
    | none => simp only [Option.map_none, h.2.2.2.hash]; rfl

/-- Results that are the same. -/
inductive ResultPair (cfg : Config) (argv : List Bytes) (σ : Nat → Nat) (mode mode' : Node) : Result → Result → Prop
  | accepts {uses uses' : List Leaf} (h : Zip (UsePair cfg argv σ mode mode') uses uses') :
      ResultPair cfg argv σ mode mode' (.accepts uses) (.accepts uses')
  | fails {e e' : Exc} (h : ExcPair mode mode' e e') : ResultPair cfg argv σ mode mode' (.fails e) (.fails e')
  | unknown (t : Token) : ResultPair cfg argv σ mode mode' (.unknown t) (.unknown t)

theorem same_tokens (l : List Token) : Zip (SameToken mode mode') l l := by
  induction l with
  | nil => exact .nil
  | cons _ _ ih => exact .cons (.inl rfl) ih

theorem relabel_reading (hσ : ∀ a b, σ a = σ b → a = b) (hm : MoreLabels cfg argv σ mode mode')
    {chosen ch : Choices} {sofar : List Leaf} {used : List Nat} {args : List Token} {r : Result}
    (hr : Reading cfg mode chosen sofar used args r ch) (hargs : ∀ t ∈ args, Arises cfg argv t)
    {sofar' : List Leaf} (hs : Zip Us sofar sofar') :
    ∃ r', ResultPair cfg argv σ mode mode' r r' ∧
      Reading cfg mode' (renamed σ chosen) sofar' used args r' (renamed σ ch) := by
  induction hr generalizing sofar' with
  | done => exact ⟨_, .accepts hs, .done⟩
  | @take chosen ch sofar uses used t rest left a r hf hk ha hc _ ih =>
    have ht := hargs t List.mem_cons_self
    obtain ⟨a', hp, hf'⟩ := relabel_first hσ hm hs ht hf
    obtain ⟨cl', h1, h2⟩ := relabel_claims hσ hm hs hp.2 ht hc
    cases h1 with
    | takes _ hz =>
      obtain ⟨r', h3, h4⟩ := ih (claims_left hc hargs) (zip_append hs hz)
      rw [← relabel_choose hm _ hp, hp.1] at h4
      refine ⟨r', h3, .take hf' ?_ ((relabel_available hp).2 ha) h2 h4⟩
      intro o' ho'
      obtain ⟨o, ho⟩ := relabel_clashed hm hp ho'
      exact hk o ho
  | clash hf hk =>
    obtain ⟨a', hp, hf'⟩ := relabel_first hσ hm hs (hargs _ List.mem_cons_self) hf
    obtain ⟨o', h1, h2⟩ := relabel_clashes hσ hm hp hk
    exact ⟨.fails ⟨_, [o'.tokenType]⟩, .fails ⟨rfl, .cons (pair_token h1) .nil⟩, .clash hf' h2⟩
  | again hf hk ha =>
    obtain ⟨a', hp, hf'⟩ := relabel_first hσ hm hs (hargs _ List.mem_cons_self) hf
    refine ⟨_, .fails ⟨rfl, same_tokens _⟩, ?_⟩
    rw [← relabel_choose hm _ hp]
    refine .again hf' ?_ fun h => ha ((relabel_available hp).1 h)
    intro o' ho'
    obtain ⟨o, ho⟩ := relabel_clashed hm hp ho'
    exact hk o ho
  | refused hf hk ha hc =>
    obtain ⟨a', hp, hf'⟩ := relabel_first hσ hm hs (hargs _ List.mem_cons_self) hf
    obtain ⟨cl', h1, h2⟩ := relabel_claims hσ hm hs hp.2 (hargs _ List.mem_cons_self) hc
    cases h1 with
    | refuses he =>
      refine ⟨_, .fails he, ?_⟩
      rw [← relabel_choose hm _ hp]
      refine .refused hf' ?_ ((relabel_available hp).2 ha) h2
      intro o' ho'
      obtain ⟨o, ho⟩ := relabel_clashed hm hp ho'
      exact hk o ho
  | unhandled hn hu =>
    refine ⟨_, .fails ⟨rfl, same_tokens _⟩, .unhandled ?_ ?_⟩
    · exact relabel_nobody hσ hm hs (hargs _ List.mem_cons_self) hn
    · rwa [← zip_length hm.children]
  | unknown hn hu =>
    refine ⟨_, .unknown _, .unknown ?_ ?_⟩
    · exact relabel_nobody hσ hm hs (hargs _ List.mem_cons_self) hn
    · rwa [← zip_length hm.children]

/-! ## Values -/

/-- The same value, or failures for the same reason. -/
def EndPair (mode mode' : Node) {α : Type} (o o' : Out α) : Prop :=
  (∃ a, o = .ok a ∧ o' = .ok a) ∨ SameReason mode mode' o o'

theorem EndPair.refl {α : Type} (o : Out α) : EndPair mode mode' o o := by
  cases o with
  | ok a => exact .inl ⟨a, rfl, rfl⟩
  | throw e => exact .inr (.throws rfl (same_tokens _))
  | foreign => exact .inr .foreign
  | ub => exact .inr .undefined
  | diverge => exact .inr .forever

theorem EndPair.throw {α : Type} {x x' : Node} (h : Pr x x') (ec : ErrorCode) :
    EndPair mode mode' (.throw ⟨ec, [x.tokenType]⟩ : Out α) (.throw ⟨ec, [x'.tokenType]⟩) :=
  .inr (.throws rfl (.cons (pair_token h) .nil))

theorem EndPair.bind {α β : Type} {o o' : Out α} {f f' : α → Out β} (h : EndPair mode mode' o o')
    (hf : ∀ a, EndPair mode mode' (f a) (f' a)) : EndPair mode mode' (o >>= f) (o' >>= f') := by
  rcases h with ⟨a, rfl, rfl⟩ | h
  · exact hf a
  · cases h with
    | throws hec ht => exact .inr (.throws hec ht)
    | foreign => exact .inr .foreign
    | undefined => exact .inr .undefined
    | forever => exact .inr .forever

theorem validationOf_unnamed (n : Node) (v : Value) (l : List Policy) :
    validationOf n v l = validationOf n v (l.filter fun x => !ForNaming x) := by
  induction l with
  | nil => rfl
  | cons x l ih =>
    rw [List.filter_cons]
    cases x <;> simp only [ForNaming, Bool.not_true, Bool.not_false, if_true, Bool.false_eq_true, if_false,
      validationOf, ih]

theorem missingOf_unnamed (n : Node) (l : List Policy) (r : Option Value) :
    missingOf n l r = missingOf n (l.filter fun x => !ForNaming x) r := by
  induction l generalizing r with
  | nil => rfl
  | cons x l ih =>
    rw [List.filter_cons]
    cases x with
    | required => rfl
    | runtimeEnableRequired e v =>
      show (if e then _ else missingOf n l (some v)) = if e then _ else missingOf n _ (some v)
      rw [← ih]
    | _ => exact ih _

theorem relabel_validation {c c' : Node} (h : Pr c c') (v : Value) :
    EndPair mode mode' (validationOf c v c.policies) (validationOf c' v c'.policies) := by
  rw [validationOf_unnamed c, validationOf_unnamed c', ← h.2.2.policies.others]
  generalize c.policies.filter (fun x => !ForNaming x) = l
  induction l with
  | nil => exact .refl _
  | cons x l ih =>
    cases x with
    | minMaxValue lo hi less =>
      simp only [validationOf]
      split
      · exact .throw h _
      · split
        · exact .throw h _
        · exact ih
    | validation t f =>
      simp only [validationOf]
      exact .bind (.refl _) fun _ => ih
    | _ => exact ih

theorem relabel_missing {c c' : Node} (h : Pr c c') (r : Option Value) :
    EndPair mode mode' (missingOf c c.policies r) (missingOf c' c'.policies r) := by
  rw [missingOf_unnamed c, missingOf_unnamed c', ← h.2.2.policies.others]
  generalize c.policies.filter (fun x => !ForNaming x) = l
  induction l generalizing r with
  | nil => exact .refl _
  | cons x l ih =>
    cases x with
    | required => exact .throw h _
    | runtimeEnableRequired e v =>
      simp only [missingOf]
      split
      · exact .throw h _
      · exact ih _
    | defaultValue v => exact ih _
    | _ => exact ih _

theorem relabel_parseValue {c c' : Node} (h : Alike (NewLabels cfg argv refs) σ c c') (ts : List Token) :
    parseValue c' ts = parseValue c ts := by
  have hp : parseToken c' = parseToken c := by
    funext s
    unfold parseToken
    rw [h.vt, h.policies.findSome (by intro x hx; cases x <;> simp [ForNaming] at hx <;> rfl)]
  have hl : ∀ ts, parseTokens c' ts = parseTokens c ts := by
    intro ts
    induction ts with
    | nil => rfl
    | cons t ts ih => simp only [parseTokens, hp, ih]
  simp only [parseValue, hp, hl, h.vt]

theorem relabel_valueOf {l l' : Leaf} (h : Us l l') : EndPair mode mode' (valueOf l) (valueOf l') := by
  have ht : TakesValues l'.node = TakesValues l.node := by
    rw [TakesValues, TakesValues, h.1.2.2.kind]
  unfold valueOf
  rw [ht, ← h.2, relabel_parseValue h.1.2.2]
  split
  · exact .bind (.refl _) fun v => .bind (relabel_validation h.1 v) fun _ => .refl _
  · exact .refl _

theorem relabel_noResult {c c' : Node} (h : Alike (NewLabels cfg argv refs) σ c c') :
    c'.hasNoResult = c.hasNoResult :=
  h.policies.any (by intro x hx; cases x <;> simp [ForNaming] at hx <;> rfl)

theorem relabel_findChild (hσ : ∀ a b, σ a = σ b → a = b) {x x' : Node} (hx : Pr x x')
    {cs ds : List Node} (h : Zip (Alike (NewLabels cfg argv refs) σ) cs ds) (i : Nat) :
    OptRel (fun x y => x.1 = y.1 ∧ Alike (NewLabels cfg argv refs) σ x.2.1 y.2.1 ∧
      Alike (NewLabels cfg argv refs) σ x.2.2 y.2.2)
      (findChild x.hash cs i) (findChild x'.hash ds i) := by
  induction h generalizing i with
  | nil => exact .none
  | @cons c d _ _ h1 _ ih =>
    simp only [findChild]
    have hm : OptRel (Alike (NewLabels cfg argv refs) σ) (matchChild x.hash c) (matchChild x'.hash d) := by
      refine zip_find (fun y z hyz => ?_) (nodes_relabel c h1)
      have he : (z.hash == x'.hash) = (y.hash == x.hash) := by
        rw [hyz.hash, hx.2.2.hash]
        by_cases e : y.hash = x.hash
        · simp [e]
        · rw [beq_eq_false_iff_ne.2 e, beq_eq_false_iff_ne.2 fun e' => e (hσ _ _ e')]
      rw [he, Node.hasParse, Node.hasParse, hyz.kind]
    revert hm
    generalize matchChild x.hash c = o
    generalize matchChild x'.hash d = o'
    intro hm
    cases hm with
    | none => exact ih _
    | some hm => exact .some ⟨rfl, h1, hm⟩

theorem relabel_collect (hσ : ∀ a b, σ a = σ b → a = b) (hm : MoreLabels cfg argv σ mode mode')
    {ls ls' : List Leaf} (hl : Zip Us ls ls') (rs : List (Option Value)) :
    EndPair mode mode' (collectOf mode.children ls rs) (collectOf mode'.children ls' rs) := by
  induction hl generalizing rs with
  | nil => exact .refl _
  | @cons l l' _ _ h1 _ ih =>
    simp only [collectOf]
    refine .bind (relabel_valueOf h1) fun v => ?_
    have hf := relabel_findChild hσ h1.1 hm.children 0
    have hmem : ∀ y, findChild l.node.hash mode.children 0 = some y → y.2.2 ∈ mode.nodes :=
      fun y hy => child_mem_nodes (findChild_mem (c := y.2.1) (n := y.2.2) (j := y.1) hy).1 _
        (findChild_mem (c := y.2.1) (n := y.2.2) (j := y.1) hy).2.1
    have hmem' : ∀ y, findChild l'.node.hash mode'.children 0 = some y → y.2.2 ∈ mode'.nodes :=
      fun y hy => child_mem_nodes (findChild_mem (c := y.2.1) (n := y.2.2) (j := y.1) hy).1 _
        (findChild_mem (c := y.2.1) (n := y.2.2) (j := y.1) hy).2.1
    revert hf hmem hmem'
    generalize findChild _ mode.children 0 = o
    generalize findChild _ mode'.children 0 = o'
    intro hf hmem hmem'
    cases hf with
    | none => exact ih _
    | @some a c hf =>
      have hin := hmem _ rfl
      have hin' := hmem' _ rfl
      obtain ⟨i, ca, sa⟩ := a
      obtain ⟨j, cc, sc⟩ := c
      obtain ⟨e, h2, h3⟩ := hf
      simp only at e h2 h3 hin hin'
      subst e
      have hmv : mergeValue sc = mergeValue sa := by
        funext old v
        unfold mergeValue
        rw [h3.policies.findSome (by intro x hx; cases x <;> simp [ForNaming] at hx <;> rfl)]
      simp only [relabel_noResult h2, relabel_multi h3, hmv]
      split
      · exact ih _
      · split
        · exact ih _
        · split
          · exact EndPair.throw (cfg := cfg) (argv := argv) (σ := σ) ⟨hin, hin', h3⟩ _
          · exact ih _

theorem relabel_fill {c c' : Node} (h : Pr c c') (r : Option Value) :
    EndPair mode mode' (fillValue c r) (fillValue c' r) := by
  cases r with
  | some v => exact .refl _
  | none =>
    refine .bind (relabel_missing h none) fun r => ?_
    rw [h.2.2.vt]
    exact .bind (relabel_validation h _) fun _ => .refl _

theorem relabel_check {c c' : Node} (h : Pr c c') (v : Value) :
    EndPair mode mode' (checkValue c v) (checkValue c' v) := by
  have ha : c'.children.any Node.isMultiStage = c.children.any Node.isMultiStage :=
    (zip_any (f := Node.isMultiStage) (g := Node.isMultiStage) (fun a b hab => (relabel_multi hab).symm)
      h.2.2.children).symm
  unfold checkValue
  rw [relabel_multi h.2.2, ha]
  split
  · exact relabel_validation h v
  · exact .refl _

theorem relabel_oneByOne {α β γ : Type} {S : α → β → Prop} {f : α → Out γ} {g : β → Out γ}
    (hf : ∀ a b, S a b → EndPair mode mode' (f a) (g b)) {l : List α} {m : List β} (h : Zip S l m) :
    EndPair mode mode' (oneByOne f l) (oneByOne g m) := by
  induction h with
  | nil => exact .refl _
  | cons h1 _ ih => exact .bind (hf _ _ h1) fun _ => .bind ih fun _ => .refl _

theorem relabel_valued (hm : MoreLabels cfg argv σ mode mode') :
    Zip (fun x y => Pr x.1 y.1 ∧ x.2 = y.2) (valued mode.children) (valued mode'.children) := by
  have hz : Zip Pr mode.children mode'.children :=
    zip_imp hm.children fun x hx y hy hxy =>
      ⟨child_mem_nodes hx _ (self_mem_nodes _), child_mem_nodes hy _ (self_mem_nodes _), hxy⟩
  refine zip_filter (fun a b hab => by rw [relabel_noResult hab.1.2.2]) ?_
  generalize mode.children = cs at hz ⊢
  generalize mode'.children = ds at hz ⊢
  generalize 0 = k
  induction hz generalizing k with
  | nil => exact .nil
  | cons h1 _ ih =>
    rw [List.zipIdx_cons, List.zipIdx_cons]
    exact .cons ⟨h1, rfl⟩ (ih _)

theorem zip_zip {α β γ : Type} {S : α → β → Prop} {l : List α} {m : List β} (h : Zip S l m) (v : List γ) :
    Zip (fun x y => S x.1 y.1 ∧ x.2 = y.2) (l.zip v) (m.zip v) := by
  induction h generalizing v with
  | nil => exact .nil
  | cons h1 _ ih =>
    cases v with
    | nil => exact .nil
    | cons a v => exact .cons ⟨h1, rfl⟩ (ih v)

theorem relabel_modeOf (hσ : ∀ a b, σ a = σ b → a = b) (hm : MoreLabels cfg argv σ mode mode')
    {ls ls' : List Leaf} (hl : Zip Us ls ls') :
    EndPair mode mode' (modeOf mode ls) (modeOf mode' ls') := by
  have hr : mode'.hasRouter = mode.hasRouter :=
    hm.policies.any (by intro x hx; cases x <;> simp [ForNaming] at hx <;> rfl)
  unfold modeOf
  rw [← zip_length hm.children, hr]
  refine .bind (relabel_collect hσ hm hl _) fun rs => ?_
  refine .bind (relabel_oneByOne (fun a b hab => ?_) (relabel_valued hm)) fun vals => ?_
  · rw [← hab.2]
    exact relabel_fill hab.1 _
  refine .bind (relabel_oneByOne (fun a b hab => ?_) (zip_zip (relabel_valued hm) vals)) fun _ => ?_
  · rw [← hab.2]
    exact relabel_check hab.1.1 _
  split
  · exact .refl _
  · exact EndPair.throw (cfg := cfg) (argv := argv) (σ := σ)
      ⟨self_mem_nodes _, self_mem_nodes _, hm⟩ _

/-! ## C122 -/

/-- C122: new labels leave old command lines alone. Arguments of a mode get a long or a short name they did
not have (and perhaps other names in messages). If the new labels are not used, not on the command
line and not in aliases or dependencies, the program does the same as before: it calls the same router
with the same values; or it fails with the same error, about the same tokens or about the same arguments
(which may now be called by their new names); or as before there is something that nobody wants, where
the suggestion may be another one. -/
theorem C122_new_labels {depth depth' : Nat} {root root' : Node} {names rest : List Bytes}
    (hc : compiles cfg depth defaultRules root = true) (hu : Conventional root)
    (hc' : compiles cfg depth' defaultRules root' = true) (hu' : Conventional root')
    (hl : LedTo cfg root mode names rest) (hl' : LedTo cfg root' mode' names rest)
    (hσ : ∀ a b, σ a = σ b → a = b) (hm : MoreLabels cfg rest σ mode mode') {s s' : St}
    (hs : SamePast σ s s') (htext : ∀ x ∈ names ++ rest, Readable cfg ⟨.none, x⟩)
    (hlen : ((names ++ rest).map List.length).sum + (names ++ rest).length < 2 ^ 63) :
    SameEnd mode mode' (parseArgs cfg root (names ++ rest) s).1
      (parseArgs cfg root' (names ++ rest) s').1 ∧
    SamePast σ (parseArgs cfg root (names ++ rest) s).2 (parseArgs cfg root' (names ++ rest) s').2 := by
  obtain ⟨hmem, hk⟩ := ledTo_mem hl
  obtain ⟨hmem', hk'⟩ := ledTo_mem hl'
  obtain ⟨ho, hrep⟩ := ledTo_ordinary (C92_ordinary_partial hc hu) hl
  have hs3 : rest.Sublist (names ++ rest) := List.sublist_append_right _ _
  obtain ⟨r, ch, hr⟩ := reading_of (cfg := cfg) (chosen := s.sel) ho hrep
    (rest := rest.map (Token.mk .none)) (Nat.lt_of_le_of_lt (weight_raw _) (fits_shorter hs3 hlen)) (by
      intro _ t ht
      obtain ⟨x, hx, rfl⟩ := List.mem_map.1 ht
      exact htext x (hs3.subset hx))
  obtain ⟨r', hp, hr'⟩ := relabel_reading hσ hm hr (by
    intro t ht
    obtain ⟨x, hx, rfl⟩ := List.mem_map.1 ht
    exact .typed hx) .nil
  have hsel : renamed σ s.sel = s'.sel := hs.2.symm
  rw [hsel] at hr'
  rw [led_run hc hu hl s htext hlen hr, led_run hc' hu' hl' s' htext hlen hr']
  have hpast : SamePast σ { s with sel := ch } { s' with sel := renamed σ ch } := ⟨hs.1, rfl⟩
  cases hp with
  | @accepts uses uses' hz =>
    rw [accepted_outcome hc hmem hk hr, accepted_outcome hc' hmem' hk' hr']
    have hmo := relabel_modeOf hσ hm hz
    generalize modeOf mode uses = o at hmo
    generalize modeOf mode' uses' = o' at hmo
    rcases hmo with ⟨vals, rfl, rfl⟩ | h
    · refine ⟨.succeeds, ?_, rfl⟩
      show s'.calls ++ [⟨mode'.uid, vals⟩] = s.calls ++ [⟨mode.uid, vals⟩]
      rw [hs.1, hm.uid]
    · cases h with
      | throws hec ht => exact ⟨.fails (.throws hec ht), hpast⟩
      | foreign => exact ⟨.fails .foreign, hpast⟩
      | undefined => exact ⟨.fails .undefined, hpast⟩
      | forever => exact ⟨.fails .forever, hpast⟩
  | fails he => exact ⟨.fails (.throws he.1 he.2), hpast⟩
  | unknown t => exact ⟨.lost (lost_unknown cfg mode t) (lost_unknown cfg mode' t), hpast⟩

end

/-! ## Concrete cases -/

/-- `toolMode`, where `--num` can also be given as `-n` and `--verbose` is called something else in
messages. -/
def labelFlag : Node := mkFlag .default 41 141 [.longName (b "all"), .shortName (b "a")]
def labelVerbose : Node :=
  mkCountingFlag .default 42 142 64 [.longName (b "verbose"), .shortName (b "v"), .errorName (b "V")]
def labelNum : Node := mkArg 43 143 digitType [.longName (b "num"), .shortName (b "n"), .required,
  .minMaxValue (some (.one (.int 2))) (some (.one (.int 7))) intLess]
def labelOut : Node := mkArg 44 144 digitType [.longName (b "out"), .defaultValue (.one (.int 9))]
def labelMode : Node := mkMode 45 145 [.router] [labelFlag, labelVerbose, labelNum, labelOut]
def labelRoot : Node := mkRoot 46 146 [labelMode]

theorem labelMode_led (rest : List Bytes) : LedTo .default labelRoot labelMode [] rest where
  way := ⟨[], labelMode, [], rfl, .unnamed rfl (by decide), fun d hd => nomatch hd⟩
  here := by
    intro t _ d hd hk
    have : ∀ d ∈ labelMode.children, d.kind ≠ .mode := by decide
    exact absurd hk (this d hd)

/-- Where everything is typed with two dashes there are no short flags. -/
theorem arises_long {argv : List Bytes} (h : ∀ y ∈ argv, b "-" <+: y → b "--" <+: y) {t : Token}
    (ht : Arises .default argv t) : t.pre = .none ∧ t.name ∈ argv := by
  induction ht with
  | typed hx => exact ⟨rfl, hx⟩
  | part _ hs _ _ ih =>
    rcases hs with ⟨h1, -⟩ | ⟨-, h1, h2⟩
    · rw [ih.1] at h1; cases h1
    · exact absurd (h _ ih.2 ⟨_, h1.symm⟩) h2

theorem sameLabels (cfg : Config) (argv : List Bytes) {p q : List Policy}
    (h : (p.filter fun x => !ForNaming x) = q.filter fun x => !ForNaming x)
    (h2 : p.filter IsFlagName = q.filter IsFlagName)
    (hn : ((q.filter IsFlagName).map Policy.kindNo).Nodup) : NewLabels cfg argv [] p q where
  others := h
  kept := h2 ▸ .refl _
  once := hn
  named := .inl h2
  unreferred := ⟨fun _ _ _ => List.not_mem_nil, fun _ _ _ => List.not_mem_nil⟩
  untyped x hx hf hp := absurd ((List.mem_filter.1 (h2 ▸ List.mem_filter.2 ⟨hx, hf⟩ : x ∈ p.filter IsFlagName)).1) hp

theorem num_labels {argv : List Bytes} (h : ∀ y ∈ argv, b "-" <+: y → b "--" <+: y) :
    NewLabels .default argv [] toolNum.policies labelNum.policies where
  others := rfl
  kept := .cons_cons _ (.cons _ .slnil)
  once := by decide
  named := .inr ⟨by decide, by simp [toolNum, mkArg, Node.policies]⟩
  unreferred := ⟨fun _ _ _ => List.not_mem_nil, fun _ _ _ => List.not_mem_nil⟩
  untyped := by
    intro x hx hf hp t ht hm
    obtain ⟨h1, h2⟩ := arises_long h ht
    obtain ⟨pre, name⟩ := t
    simp only at h1 h2
    subst h1
    have hx : x = .shortName (b "n") := by
      have hin : x ∈ labelNum.policies.filter IsFlagName := List.mem_filter.2 ⟨hx, hf⟩
      have hl : labelNum.policies.filter IsFlagName = [.longName (b "num"), .shortName (b "n")] := rfl
      rw [hl] at hin
      simp only [List.mem_cons, List.not_mem_nil, or_false] at hin
      rcases hin with rfl | rfl
      · exact absurd (by simp [toolNum, mkArg, Node.policies]) hp
      · rfl
    subst hx
    have hno : ∀ p ∈ Policy.shortName (b "n") :: labelNum.policies.filter (fun y => !ForNaming y), (match p with
        | .valueSeparator _ | .shortFormExpander => false | _ => true) = true := by decide
    rcases hm with hl | ⟨_, _, _, _, h3, _⟩ | ⟨_, _, _, h3, _⟩
    · rcases hl with ⟨l, h4, -⟩ | ⟨l, h4, h5, h6⟩ | ⟨h4, -⟩
      · cases h4
      · exact h6 (h _ h2 ⟨l, h5.symm⟩)
      · cases h4
    · exact absurd (hno _ h3) (by simp)
    · exact absurd (hno _ h3) (by simp)

theorem tool_labels {argv : List Bytes} (h : ∀ y ∈ argv, b "-" <+: y → b "--" <+: y) :
    MoreLabels .default argv (· + 100) toolMode labelMode := by
  have href : references toolMode = [] := by decide
  rw [MoreLabels, href]
  refine .mk (sameLabels _ _ rfl rfl (by decide)) (.cons ?_ (.cons ?_ (.cons ?_ (.cons ?_ .nil))))
  · exact .mk (sameLabels _ _ rfl rfl (by decide)) .nil
  · exact .mk (sameLabels _ _ rfl rfl (by decide)) .nil
  · exact .mk (num_labels h) .nil
  · exact .mk (sameLabels _ _ rfl rfl (by decide)) .nil

/-- The hypotheses of C122 are met: with all command lines that have no short names. -/
example (rest : List Bytes) (h : ∀ y ∈ rest, b "-" <+: y → b "--" <+: y) :
    compiles .default 100 defaultRules toolRoot = true ∧ Conventional toolRoot ∧
    compiles .default 100 defaultRules labelRoot = true ∧ Conventional labelRoot ∧
    LedTo .default toolRoot toolMode [] rest ∧ LedTo .default labelRoot labelMode [] rest ∧
    MoreLabels .default rest (· + 100) toolMode labelMode :=
  ⟨by decide +kernel, conventional_of_test (by decide +kernel), by decide +kernel,
    conventional_of_test (by decide +kernel), toolMode_led rest, labelMode_led rest, tool_labels h⟩

/-- The two programs: the same calls, the same error about an argument that is called something else,
and a label that is new. -/
example :
    parseArgs .default labelRoot [b "--num", b "5", b "--all"] .fresh =
      parseArgs .default toolRoot [b "--num", b "5", b "--all"] .fresh ∧
    parseArgs .default labelRoot [b "--num", b "1"] .fresh =
      (.throw ⟨.minimum_value_not_reached, [⟨.long, b "num"⟩]⟩, .fresh) ∧
    parseArgs .default toolRoot [b "-n", b "5"] .fresh =
      (.throw ⟨.unknown_argument_with_suggestion, [⟨.none, b "-n"⟩, ⟨.short, b "a"⟩]⟩, .fresh) ∧
    parseArgs .default labelRoot [b "-n", b "5"] .fresh =
      (.ok (), ⟨[], [⟨45, [.one (.bool false), .one (.int 0), .one (.int 5), .one (.int 9)]⟩]⟩) := by
  decide +kernel

end ArgRouter.Props

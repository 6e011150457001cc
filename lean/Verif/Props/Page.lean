import Verif.Spec.Page
import Verif.Props.Labels
import Verif.Props.AskHelp
import Verif.Props.Uax14

/-!
# C98: the help page
-/

namespace ArgRouter.Props
open ArgRouter Utf8 Spec

/-! ## Lines and rows -/

/-- The row of a line. -/
def rowAt (info : HelpInfo) (l : HelpLine) : Nat × Bytes × Bytes :=
  (l.depth, l.bar ++ l.node.helpLabel info, l.node.helpDescription)

theorem linesBelow_group (hidden : Node → Bool) (f : Bool) (d : Nat) (n : Node) (hg : IsGroup n) :
    linesBelow hidden f d n = (n.children.filter fun c => !hidden c).mapIdx fun i c =>
      ⟨d, some ((n.children.filter fun c => !hidden c).length, i), c⟩ := by
  cases n; rw [linesBelow, if_pos hg]; rfl

theorem linesBelow_open (hidden : Node → Bool) (f : Bool) (d : Nat) (n : Node) (hg : ¬ IsGroup n) :
    linesBelow hidden f d n = if Closed f n = true then [] else linesOf hidden f d n.children := by
  cases n; rw [linesBelow, if_neg hg]; rfl

theorem group_rows (info : HelpInfo) (n : Node) (ht : HelpTree n) (hg : IsGroup n) (f : Bool) (d : Nat) :
    HelpRow.flatList d (barsRuntime (defaultRows info true n.children)) =
      (linesBelow SwitchedOff f d n).map (rowAt info) := by
  have hrun := ht.group n (self_mem_nodes n) hg
  rw [defaultRows_group (fun c hc => ⟨ht.child hc, hrun c hc⟩), barsRuntime_eq, List.length_map,
    linesBelow_group _ _ _ _ hg, show Node.helpShown = fun c : Node => !SwitchedOff c from rfl]
  generalize n.children.filter (fun c => !SwitchedOff c) = ms
  generalize ms.length = m
  rw [flatList_leaf_rows]
  · apply List.ext_getElem
    · simp
    · intro i h1 h2
      simp [prefixRuntime, rowAt, HelpLine.bar]
  · intro r hr
    obtain ⟨i, hi, rfl⟩ := List.mem_mapIdx.1 hr
    simp [prefixRuntime]

mutual
theorem runtimeRows_lines (info : HelpInfo) (f : Bool) : ∀ (n : Node), HelpTree n → ∀ d,
    HelpRow.flatList d (runtimeRows info f n) = (linesBelow SwitchedOff f d n).map (rowAt info)
  | .mk k u h v p cs, ht, d => by
    have hch : ∀ c ∈ cs, HelpTree c := fun c hc => ht.child (c := c) hc
    have hnr : ∀ c ∈ cs, c.kind ≠ .root := fun c hc => ht.noRoot _ (self_mem_nodes _) c hc
    have hleaf : Runnable (.mk k u h v p cs) = true → cs = [] := ht.leaf _ (self_mem_nodes _)
    have hkids := defaultRows_lines info f cs hch d
    cases k with
    | root =>
      rw [linesBelow_open _ _ _ _ (by simp [IsGroup, Node.kind])]
      simp only [runtimeRows]
      rw [if_neg (by simp [Closed, Node.kind])]
      exact hkids
    | mode =>
      rw [linesBelow_open _ _ _ _ (by simp [IsGroup, Node.kind])]
      simp only [runtimeRows]
      by_cases ha : (Node.mk .mode u h v p cs).isAnonymous = true
      · have hnm := ht.anon _ (self_mem_nodes _) rfl ha
        simp only [ha, Bool.true_or, if_true]
        rw [defaultRows_flatten (fun c hc => ⟨hch c hc, hnm c hc, hnr c hc⟩) true f,
          if_neg (by simp [Closed, ha])]
        exact hkids
      · simp only [ha, Bool.false_or]
        cases f with
        | true => rw [if_pos rfl, if_neg (by simp [Closed])]; exact hkids
        | false => rw [if_neg (by simp), if_pos (by simp [Closed, ha, Node.kind])]; rfl
    | aliasGroup => simp only [runtimeRows]; exact group_rows info _ ht (.inl rfl) f d
    | oneOf => simp only [runtimeRows]; exact group_rows info _ ht (.inr rfl) f d
    | _ =>
      have := hleaf rfl
      subst this
      rw [linesBelow_open _ _ _ _ (by simp [IsGroup, Node.kind])]
      simp [runtimeRows, defaultRows, HelpRow.flatList, Node.children, linesOf]
theorem defaultRows_lines (info : HelpInfo) (f : Bool) : ∀ (cs : List Node),
    (∀ c ∈ cs, HelpTree c) → ∀ d,
    HelpRow.flatList d (defaultRows info f cs) = (linesOf SwitchedOff f d cs).map (rowAt info)
  | [], _, d => by simp [defaultRows, HelpRow.flatList, linesOf]
  | c :: cs, h, d => by
    have ih := defaultRows_lines info f cs (fun x hx => h x (List.mem_cons_of_mem _ hx)) d
    have hc := runtimeRows_lines info f c (h c List.mem_cons_self) (d + 1)
    rw [defaultRows, linesOf, List.map_append, ← ih]
    have hs : c.helpShown = !SwitchedOff c := rfl
    rw [hs]
    cases SwitchedOff c with
    | true => simp
    | false => simp [HelpRow.flatList, HelpRow.flat, hc, rowAt, HelpLine.bar]
end

/-- The compile-time row of a line: always with a bar for the member of a group. -/
def StaticRow (info : HelpInfo) (l : HelpLine) (r : Nat × Bytes × Bytes) : Prop :=
  ∃ bar, r.1 = l.depth ∧ r.2.1 = bar ++ l.node.helpLabel info ∧
    (l.place = none → bar = []) ∧ (l.place ≠ none → IsBar bar)

theorem barsStatic_zip (rs : List HelpRow) :
    Zip (fun r r' => ∃ bar, IsBar bar ∧ r' = prefixStatic bar r) rs (barsStatic rs) := by
  have hmid : ∀ l : List HelpRow, Zip (fun r r' => ∃ bar, IsBar bar ∧ r' = prefixStatic bar r) l
      (l.map (prefixStatic middleBar)) := by
    intro l
    induction l with
    | nil => exact .nil
    | cons r l ih => exact .cons ⟨_, .inr (.inl rfl), rfl⟩ ih
  cases rs with
  | nil => exact .nil
  | cons r rs =>
    rw [barsStatic]
    cases hrs : rs with
    | nil => exact .cons ⟨_, .inr (.inr rfl), rfl⟩ .nil
    | cons s l =>
      rw [← hrs]
      have hne : rs ≠ [] := by rw [hrs]; simp
      rw [List.dropLast_cons_of_ne_nil (by simpa using hne), List.getLast_cons hne, ← List.map_dropLast]
      have h1 : Zip (fun r r' => ∃ bar, IsBar bar ∧ r' = prefixStatic bar r)
          ((r :: rs.dropLast) ++ [rs.getLast hne])
          ((prefixStatic topBar r :: rs.dropLast.map (prefixStatic middleBar)) ++
            [prefixStatic bottomBar (rs.getLast hne)]) :=
        Zip.append (.cons ⟨_, .inl rfl, rfl⟩ (hmid _)) (.cons ⟨_, .inr (.inr rfl), rfl⟩ .nil)
      rw [List.cons_append, List.dropLast_concat_getLast] at h1
      exact h1

theorem zip_mapIdx_left {α β γ : Type} {R : β → γ → Prop} {S : α → γ → Prop} {l : List α} {m : List γ}
    (f : Nat → α → β) (h : Zip S l m) (hr : ∀ i a c, S a c → R (f i a) c) : Zip R (l.mapIdx f) m := by
  induction h generalizing f with
  | nil => exact .nil
  | cons hs _ ih =>
    rw [List.mapIdx_cons]
    exact .cons (hr _ _ _ hs) (ih _ fun i a c h => hr _ a c h)

theorem group_static (info : HelpInfo) (n : Node) (hg : IsGroup n) (f : Bool) (d : Nat) :
    Zip (StaticRow info) (linesBelow (fun _ => false) f d n)
      (HelpRow.flatList d (barsStatic (staticHelps info f n.children))) := by
  have hf : (n.children.filter fun _ => !false) = n.children := by
    rw [List.filter_eq_self]; intros; rfl
  rw [linesBelow_group _ _ _ _ hg, hf]
  have hz := barsStatic_zip (n.children.map (staticHelp info f))
  have hz := zip_map_left hz
  rw [staticHelps_eq]
  rw [flatList_leaf_rows]
  · refine zip_map_right (zip_mapIdx_left _ hz ?_)
    rintro i c row ⟨bar, hb, rfl⟩
    rw [staticHelp_eq, prefixStatic]
    exact ⟨bar, rfl, rfl, fun h => (Option.some_ne_none _ h).elim, fun _ => hb⟩
  · intro r hr
    obtain ⟨c, _, bar, _, rfl⟩ := hz.mem_right hr
    rw [staticHelp_eq]
    exact ⟨_, _, rfl⟩

mutual
theorem static_lines (info : HelpInfo) (f : Bool) : ∀ (n : Node), HelpTree n → ∀ d,
    Zip (StaticRow info) (linesBelow (fun _ => false) f d n)
      (HelpRow.flatList d (staticKids info f n))
  | .mk k u h v p cs, ht, d => by
    have hch : ∀ c ∈ cs, HelpTree c := fun c hc => ht.child (c := c) hc
    have hleaf : Runnable (.mk k u h v p cs) = true → cs = [] := ht.leaf _ (self_mem_nodes _)
    have hkids := statics_lines info f cs hch d
    cases k with
    | root =>
      rw [linesBelow_open _ _ _ _ (by simp [IsGroup, Node.kind])]
      simp only [staticKids, staticHelp]
      rw [if_neg (by simp [Closed, Node.kind])]
      exact hkids
    | mode =>
      rw [linesBelow_open _ _ _ _ (by simp [IsGroup, Node.kind])]
      simp only [staticKids, staticHelp]
      by_cases ha : (Node.mk .mode u h v p cs).isAnonymous = true
      · simp only [ha, Bool.true_or, if_true]
        rw [if_neg (by simp [Closed, ha])]
        exact hkids
      · simp only [ha, Bool.false_or]
        cases f with
        | true => rw [if_pos rfl, if_neg (by simp [Closed])]; exact hkids
        | false =>
          rw [if_pos (by simp [Closed, ha, Node.kind])]
          exact .nil
    | aliasGroup => simp only [staticKids, staticHelp]; exact group_static info _ (.inl rfl) f d
    | oneOf => simp only [staticKids, staticHelp]; exact group_static info _ (.inr rfl) f d
    | _ =>
      have := hleaf rfl
      subst this
      rw [linesBelow_open _ _ _ _ (by simp [IsGroup, Node.kind])]
      simp only [staticKids, staticHelp, HelpRow.flatList, Node.children, linesOf, ite_self]
      exact .nil
theorem statics_lines (info : HelpInfo) (f : Bool) : ∀ (cs : List Node),
    (∀ c ∈ cs, HelpTree c) → ∀ d,
    Zip (StaticRow info) (linesOf (fun _ => false) f d cs)
      (HelpRow.flatList d (staticHelps info f cs))
  | [], _, d => by simp only [staticHelps, HelpRow.flatList, linesOf]; exact .nil
  | c :: cs, h, d => by
    have ih := statics_lines info f cs (fun x hx => h x (List.mem_cons_of_mem _ hx)) d
    have hc := static_lines info f c (h c List.mem_cons_self) (d + 1)
    rw [staticHelps, HelpRow.flatList, linesOf, if_neg (by simp), staticHelp_eq, HelpRow.flat]
    exact Zip.append (.cons ⟨[], rfl, rfl, fun _ => rfl, fun h => absurd rfl h⟩ hc) ih
end

/-! ## The column -/

mutual
theorem descColumn_attained (ind : Nat) : ∀ (row : HelpRow) (d m D : Nat),
    descColumn ind d row m = .ok D →
    D = m ∨ ∃ r ∈ row.flat d, ∃ w, terminalWidth r.2.1 = .ok w ∧ D = r.1 * ind + w + ind
  | .mk l ds cs, d, m, D, h => by
    rw [descColumn] at h
    cases hw : terminalWidth l with
    | ok w =>
      rw [hw] at h
      simp only [Out.ok_bind] at h
      rw [HelpRow.flat]
      rcases descColumns_attained ind cs _ _ _ h with h | ⟨r, hr, h⟩
      · rcases Nat.le_total (d * ind + w + ind) m with hm | hm
        · exact .inl (by omega)
        · exact .inr ⟨_, List.mem_cons_self, w, hw, by dsimp only; omega⟩
      · exact .inr ⟨r, List.mem_cons_of_mem _ hr, h⟩
    | _ => rw [hw] at h; simp at h
theorem descColumns_attained (ind : Nat) : ∀ (rows : List HelpRow) (d m D : Nat),
    descColumns ind d rows m = .ok D →
    D = m ∨ ∃ r ∈ HelpRow.flatList d rows, ∃ w, terminalWidth r.2.1 = .ok w ∧
      D = r.1 * ind + w + ind
  | [], d, m, D, h => by
    simp only [descColumns, Out.ok.injEq] at h
    exact .inl h.symm
  | row :: rows, d, m, D, h => by
    rw [descColumns] at h
    cases hd : descColumn ind d row m with
    | ok m' =>
      rw [hd] at h
      simp only [Out.ok_bind] at h
      rw [HelpRow.flatList]
      rcases descColumns_attained ind rows _ _ _ h with h | ⟨r, hr, h⟩
      · subst h
        rcases descColumn_attained ind row _ _ _ hd with h | ⟨r, hr, h⟩
        · exact .inl h
        · exact .inr ⟨r, List.mem_append_left _ hr, h⟩
      · exact .inr ⟨r, List.mem_append_right _ hr, h⟩
    | _ => rw [hd] at h; simp at h
end

theorem zip_mem_left {α β : Type} {R : α → β → Prop} {l m} (h : Zip R l m) {x : α} (hx : x ∈ l) :
    ∃ y ∈ m, R x y := h.symm.mem_right hx

mutual
theorem linesBelow_nodes (hidden : Node → Bool) (f : Bool) : ∀ (n : Node) (d : Nat),
    ∀ l ∈ linesBelow hidden f d n, l.node ∈ n.nodes
  | .mk k u h v p cs, d, l, hl => by
    have ih := linesOf_nodes hidden f cs d l
    by_cases hg : IsGroup (.mk k u h v p cs)
    · rw [linesBelow_group _ _ _ _ hg] at hl
      obtain ⟨i, hi, rfl⟩ := List.mem_mapIdx.1 hl
      exact child_mem_nodes (List.mem_filter.1 (List.getElem_mem hi)).1 _ (self_mem_nodes _)
    · rw [linesBelow_open _ _ _ _ hg] at hl
      split at hl
      · simp at hl
      · obtain ⟨c, hc, hm⟩ := ih hl
        exact child_mem_nodes (by exact hc) _ hm
theorem linesOf_nodes (hidden : Node → Bool) (f : Bool) : ∀ (cs : List Node) (d : Nat),
    ∀ l ∈ linesOf hidden f d cs, ∃ c ∈ cs, l.node ∈ c.nodes
  | [], d, l, hl => by simp [linesOf] at hl
  | c :: cs, d, l, hl => by
    have ih := linesOf_nodes hidden f cs d l
    have ihc := linesBelow_nodes hidden f c (d + 1) l
    rw [linesOf] at hl
    rcases List.mem_append.1 hl with hl | hl
    · split at hl
      · simp at hl
      · rcases List.mem_cons.1 hl with rfl | hl
        · exact ⟨c, List.mem_cons_self, self_mem_nodes _⟩
        · exact ⟨c, List.mem_cons_self, ihc hl⟩
    · obtain ⟨x, hx, hm⟩ := ih hl
      exact ⟨x, List.mem_cons_of_mem _ hx, hm⟩
end

theorem helpLines_nodes (hidden : Node → Bool) (f : Bool) (target : Node) :
    ∀ l ∈ helpLines hidden f target, l.node ∈ target.nodes := by
  intro l hl
  rcases List.mem_cons.1 hl with rfl | hl
  · exact self_mem_nodes _
  · exact linesBelow_nodes _ _ _ _ _ hl

theorem column_of {Num : Int → Bytes → Prop} {info : HelpInfo} {ind : Nat} {flatten : Bool} {target : Node}
    (ht : HelpTree target) (hl : ∀ n ∈ target.nodes, LabelText Num info n (n.helpLabel info)) {D : Nat}
    (hD : descColumn ind 0 (staticHelp info flatten target) 0 = .ok D) :
    IsColumn Num info ind flatten target D := by
  have hz : Zip (StaticRow info) (helpLines (fun _ => false) flatten target)
      ((staticHelp info flatten target).flat 0) := by
    rw [staticHelp_eq, HelpRow.flat]
    exact .cons ⟨[], rfl, rfl, fun _ => rfl, fun h => absurd rfl h⟩ (static_lines info flatten target ht 1)
  have hrow : ∀ l ∈ helpLines (fun _ => false) flatten target, ∀ r w, StaticRow info l r →
      terminalWidth r.2.1 = .ok w → ∃ label u, LabelText Num info l.node label ∧
        terminalWidth label = .ok u ∧ w = (if l.place.isSome then 2 else 0) + u ∧ r.1 = l.depth := by
    rintro l hm r w ⟨bar, h1, h2, h3, h4⟩ hw
    have hlab := hl l.node (helpLines_nodes _ _ _ l hm)
    rw [h2] at hw
    cases hp : l.place with
    | none =>
      rw [h3 hp] at hw
      exact ⟨_, w, hlab, hw, by simp, h1⟩
    | some x =>
      obtain ⟨u, hu, rfl⟩ := (terminalWidth_bar (h4 (by rw [hp]; simp)) _ _).1 hw
      exact ⟨_, u, hlab, hu, by simp, h1⟩
  obtain ⟨-, hs⟩ := descColumn_spec ind _ _ _ _ hD
  refine ⟨fun l hm => ?_, ?_⟩
  · obtain ⟨r, hr, hrel⟩ := zip_mem_left hz hm
    obtain ⟨w, hw, hle⟩ := hs r hr
    obtain ⟨label, u, a1, a2, a3, a4⟩ := hrow l hm r w hrel hw
    exact ⟨_, ⟨label, u, a1, a2, rfl⟩, by rw [← a4]; omega⟩
  · have : ∃ r ∈ (staticHelp info flatten target).flat 0, ∃ w, terminalWidth r.2.1 = .ok w ∧
        D = r.1 * ind + w + ind := by
      rcases descColumn_attained ind _ _ _ _ hD with h | h
      · have hf : ∃ r, r ∈ (staticHelp info flatten target).flat 0 := by
          rw [staticHelp_eq, HelpRow.flat]; exact ⟨_, List.mem_cons_self⟩
        obtain ⟨r, hr⟩ := hf
        obtain ⟨w, hw, hle⟩ := hs r hr
        exact ⟨r, hr, w, hw, by omega⟩
      · exact h
    obtain ⟨r, hr, w, hw, he⟩ := this
    obtain ⟨l, hm, hrel⟩ := hz.mem_right hr
    obtain ⟨label, u, a1, a2, a3, a4⟩ := hrow l hm r w hrel hw
    exact ⟨l, hm, label, u, a1, a2, by rw [← a4]; omega⟩

/-! ## Descriptions -/

theorem described_as (n : Node) : DescribedAs n n.helpDescription := by
  by_cases hk : n.kind = .root ∨ IsGroup n
  · have : n.helpDescription = [] := by
      unfold Node.helpDescription
      rcases hk with hk | hk | hk <;> rw [hk]
    rw [this]
    exact .none (hk.elim .inl fun h => .inr (.inl h))
  · have hg : n.helpDescription = n.descriptionText.getD [] := by
      unfold Node.helpDescription
      split <;> simp_all [IsGroup]
    rw [hg]
    cases hd : n.descriptionText with
    | none =>
      refine .none (.inr (.inr fun d hm => ?_))
      have := List.findSome?_eq_none_iff.1 hd _ hm
      simp at this
    | some d =>
      obtain ⟨p, hp, hs⟩ := List.exists_of_findSome?_eq_some hd
      cases p <;> simp at hs
      subst hs
      exact .text (fun h => hk (.inl h)) (fun h => hk (.inr h)) hp

theorem pieces_and {P : List Char → List Char → Prop} {Q : List Char → Prop} {t ls} (h : Pieces P t ls)
    (hq : ∀ l ∈ ls, Q l) : Pieces (fun l a => P l a ∧ Q l) t ls := by
  induction h with
  | nil => exact .nil
  | cons hgap hP _ ih =>
    exact .cons hgap ⟨hP, hq _ List.mem_cons_self⟩ (ih fun l hl => hq l (List.mem_cons_of_mem _ hl))

theorem pieces_plain {P : List Char → List Char → Prop} {t ls} (h : Pieces P t ls) (ht : Plain t) :
    ∀ l ∈ ls, Plain l := by
  induction h with
  | nil => simp
  | cons _ _ _ ih =>
    rw [Plain.append_iff, Plain.append_iff] at ht
    intro l hl
    rcases List.mem_cons.1 hl with rfl | hl
    · exact ht.1.1
    · exact ih ht.2 l hl

theorem greedy_pieces {opp : List Char → List Char → List Char → Prop} {n : Nat} {before cs parts}
    (h : Uax14.Greedy columns isUnicodeWhitespace opp n before cs parts) :
    Pieces (fun line _ => line ≠ [] ∧ (line.map columns).sum ≤ n) cs parts := by
  induction h with
  | nothing => exact .nil
  | line ends hs _ _ ih =>
    refine .cons hs ?_ ih
    cases ends with
    | whole _ h1 h2 => exact ⟨h1, h2⟩
    | opportunity _ _ h1 h2 => exact ⟨by rintro rfl; simp at h1, h2⟩
    | full _ h1 _ h2 => exact ⟨h1, h2⟩

theorem lines_wrapped {d : Bytes} {limit : Nat} {ls : List Bytes} (h : lines d limit = .ok ls) :
    Wrapped limit d ls := by
  rintro cs rfl hp hn
  by_cases hu : Uax14.UsualText cs
  · obtain ⟨parts, h1, h2⟩ := C97_wrap_partial cs hp hu limit (by omega) _ ls h
    exact ⟨parts, h1, greedy_pieces h2, fun _ => h2⟩
  · obtain ⟨parts, h1, h2⟩ := C46_only_whitespace_lost_partial cs hp limit (by omega) _ ls h
    refine ⟨parts, h1, pieces_and h2 fun l hl => ?_, fun h => absurd h hu⟩
    obtain ⟨line, -, hle, hw⟩ := C45_lines_fit_partial cs hp _ _ ls h (enc l)
      (by rw [h1]; exact List.mem_map_of_mem hl)
    rw [C40_width_sum_partial l (pieces_plain h2 hp l hl)] at hw
    injection hw with hw
    omega

/-! ## The page -/

theorem line_of_row {Num : Int → Bytes → Prop} {info : HelpInfo} {ind D limit : Nat} {l : HelpLine}
    {text : Bytes} (hl : LabelText Num info l.node (l.node.helpLabel info))
    (h : RowText ind D limit (rowAt info l) text) : LineText Num info ind D limit l text := by
  have hd := described_as l.node
  generalize hr : rowAt info l = row at h
  cases h with
  | hidden =>
    simp only [rowAt, Prod.mk.injEq, List.append_eq_nil_iff] at hr
    rw [hr.2.1.2] at hl
    exact .unlabelled hl hr.2.1.1
  | label hne =>
    simp only [rowAt, Prod.mk.injEq] at hr
    obtain ⟨rfl, rfl, h3⟩ := hr
    rw [h3] at hd
    rw [← List.append_assoc]
    exact .label hl hne hd
  | described hne hne2 hw hg hi hls =>
    simp only [rowAt, Prod.mk.injEq] at hr
    obtain ⟨rfl, rfl, rfl⟩ := hr
    rw [← List.append_assoc (blanks _)]
    exact .described hl hne hd hne2 hw hg hi (lines_wrapped hls)

theorem zip_from_map {α β γ : Type} {R : β → γ → Prop} {S : α → γ → Prop} {f : α → β} {l : List α}
    {m : List γ} (h : Zip R (l.map f) m) (hs : ∀ a ∈ l, ∀ c, R (f a) c → S a c) : Zip S l m :=
  Zip.strengthen (zip_map_left h) hs

theorem page_of {Num : Int → Bytes → Prop} (f : HelpFormat) (info : HelpInfo) (width : Nat)
    (hc : width < 2 ^ 64) (flatten : Bool) (target : Node) (ht : HelpTree target)
    (hl : ∀ n ∈ target.nodes, LabelText Num info n (n.helpLabel info))
    (hsmall : ∀ D, descColumn f.indent 0 (staticHelp info flatten target) 0 = .ok D →
      IsColumn Num info f.indent flatten target D → D < 2 ^ 31) (out : Bytes)
    (h : generateHelp formatRow f info width flatten target = .ok out) :
    Page Num f info width flatten target out := by
  cases hD : descColumn f.indent 0 (staticHelp info flatten target) 0 with
  | ok D =>
    have hcol := column_of ht hl hD
    obtain ⟨head, texts, tail, h1, h2, h3, h4⟩ :=
      C51_aligned f info width hc flatten target ht out h D hD (hsmall D hD hcol)
    refine ⟨D, head, texts, tail, h1, h2, h3, hcol, ?_⟩
    have hrows : (runtimeHelp info flatten target).flat 0 =
        (helpLines SwitchedOff flatten target).map (rowAt info) := by
      rw [runtimeHelp, HelpRow.flat, runtimeRows_lines info flatten target ht 1]
      rfl
    rw [hrows] at h4
    refine zip_from_map h4 fun l hm text hr => ?_
    exact line_of_row (hl _ (helpLines_nodes _ _ _ l hm)) hr
  | _ => unfold generateHelp at h; rw [hD] at h; simp at h

/-- How the library writes an integer: in decimal notation, without the zeros that are followed by
another digit (C49). -/
def _root_.ArgRouter.Spec.Kept (v : Int) (t : Bytes) : Prop :=
  ∃ ds, IsDecimal ds v.natAbs ∧ t = signed v (keptDigits ds)

/-- C98 with the default formatter: the text of a help page. Missing from the full statement: numbers
are not written in decimal notation (see `C98_page_decimal_partial`), the colour formatter, and labels
that make the column 2^31 or more. -/
theorem C98_page_partial (f : HelpFormat) (info : HelpInfo) (width : Nat) (hc : width < 2 ^ 64)
    (flatten : Bool) (target : Node) (ht : HelpTree target) (hl : ∀ n ∈ target.nodes, Labelled n)
    (hsmall : ∀ D, IsColumn Kept info f.indent flatten target D → D < 2 ^ 31) (out : Bytes)
    (h : generateHelp formatRow f info width flatten target = .ok out) :
    Page Kept f info width flatten target out :=
  page_of f info width hc flatten target ht (fun n hn => C82_exact info n (hl n hn))
    (fun D _ hD => hsmall D hD) out h

/-- C98: the same with numbers in decimal notation, if none of those in the labels has a zero before its
last digit. -/
theorem C98_page_decimal_partial (f : HelpFormat) (info : HelpInfo) (width : Nat) (hc : width < 2 ^ 64)
    (flatten : Bool) (target : Node) (ht : HelpTree target) (hl : ∀ n ∈ target.nodes, Labelled n)
    (hz : ∀ n ∈ target.nodes, ∀ v, Figure info n v → NoInnerZero v)
    (hsmall : ∀ D, IsColumn Decimal info f.indent flatten target D → D < 2 ^ 31) (out : Bytes)
    (h : generateHelp formatRow f info width flatten target = .ok out) :
    Page Decimal f info width flatten target out :=
  page_of f info width hc flatten target ht (fun n hn => C82_label_partial info n (hl n hn) (hz n hn))
    (fun D _ hD => hsmall D hD) out h

/-! ## Programs -/

theorem program_labelled {fmt : Node → Formatter} {info : HelpInfo} {columns depth : Nat} {tree n : Node}
    (hc : compiles info.cfg depth defaultRules (program fmt info columns tree) = true)
    (hn : n ∈ tree.nodes) : Labelled n := by
  obtain ⟨p, hp⟩ := mem_nodes.1 (mem_install (g := fun h ts =>
    helpParse (fmt h).line (fmt h).format info columns ts tree).2 ⟨n, hn, rfl⟩)
  have h := C82_compiled hc hp
  exact ⟨fun hk => by
      have := h.named (by rw [install_kind]; exact hk)
      rwa [install_longName, install_shortName, install_noneName] at this,
    fun hk => by
      have := h.displayed (by rw [install_kind]; exact hk)
      rwa [install_displayName] at this⟩

theorem program_page {fmt : Node → Formatter} {info : HelpInfo} {columns depth : Nat} {tree : Node}
    (hc : compiles info.cfg depth defaultRules (program fmt info columns tree) = true)
    {f : HelpFormat} (hh : Helpful f info tree) (hcol : columns < 2 ^ 64) {m : Node}
    (hm : m ∈ tree.nodes) {flatten : Bool} {text : Bytes}
    (h : generateHelp formatRow f info columns flatten m = .ok text) :
    Page Kept f info columns flatten m text :=
  page_of f info columns hcol flatten m (helpTree_below (program_parts hc).1 hm)
    (fun n hn => C82_exact info n (program_labelled hc (nodes_trans _ _ hm _ hn)))
    (fun _ hD _ => descColumn_bound _ _ _ _ _ _ hD (by omega) (hh.labels m hm flatten)) _ h

/-- C98, programs: a program that compiles, on the command line `label names...` where `label` is a name
of a help node with the default formatter, hands the page about the node the names lead to to the router
of the help node, and does nothing else; or it reports a name that leads nowhere as unknown. Missing from
the full statement: as above, and asking for the help of a node that is switched off (C83). -/
theorem C98_shown_partial (fmt : Node → Formatter) (info : HelpInfo) (columns depth : Nat) (tree h : Node)
    (hc : compiles info.cfg depth defaultRules (program fmt info columns tree) = true)
    (before after : List Node) (htree : tree.children = before ++ h :: after)
    (hk : h.kind = .help) (hcount : MatchPolicies h [.minMaxCount 0 sizeMax]) (label : Bytes)
    (hlabel : Spelled info.cfg h label) (names : List Bytes) (hlen : names.length + 1 < 2 ^ 63)
    (s s1 : St) (hdec : Declined info.cfg (program fmt info columns tree)
      ((label :: names).map (Token.mk .none))
      ((program fmt info columns tree).children.take before.length) s s1)
    (hline : (fmt h).line = formatRow) (hh : Helpful (fmt h).format info tree)
    (hcol : columns < 2 ^ 64)
    (hon : ∀ m, Follows info.cfg tree names m → SwitchedOff m = false) :
    (∃ m text, Follows info.cfg tree names m ∧
      Page Kept (fmt h).format info columns ((fmt h).format.flattenHelp || m.kind != .root) m text ∧
      parseArgs info.cfg (program fmt info columns tree) (label :: names) s =
        (.ok (), { s1 with calls := s.calls ++ [⟨h.uid, [.one (.str text)]⟩] })) ∨
    ∃ pre name post m, names = pre ++ name :: post ∧ Follows info.cfg tree pre m ∧
      (SwitchedOff m = true ∨ ∀ c ∈ m.children, ¬ Selects info.cfg c name) ∧
      parseArgs info.cfg (program fmt info columns tree) (label :: names) s =
        (.throw ⟨.unknown_argument, [⟨.none, name⟩]⟩, s1) ∧ s1.calls = s.calls := by
  rcases C83_partial fmt info columns depth tree h hc before after htree hk hcount label hlabel names
      hlen s s1 hdec (.inl hline) hh hcol hon with ⟨m, text, h1, h2, h3⟩ | h
  · rw [hline] at h2
    exact .inl ⟨m, text, h1, program_page hc hh hcol (follows_mem h1) h2, h3⟩
  · exact .inr h

/-- C98, `root.help()`: it returns the page about the root, by the first help node in root. -/
theorem C98_root_partial (fmt : Node → Formatter) (info : HelpInfo) (columns depth : Nat) (tree h : Node)
    (hc : compiles info.cfg depth defaultRules (program fmt info columns tree) = true)
    (before after : List Node) (htree : tree.children = before ++ h :: after)
    (hfirst : ∀ c ∈ before, c.kind ≠ .help) (hk : h.kind = .help)
    (hline : (fmt h).line = formatRow) (hh : Helpful (fmt h).format info tree)
    (hcol : columns < 2 ^ 64) :
    ∃ text, rootHelp fmt info columns tree = .ok text ∧
      Page Kept (fmt h).format info columns (fmt h).format.flattenHelp tree text := by
  have hfind : tree.children.find? (fun c => c.kind == .help) = some h := by
    rw [htree, List.find?_append, List.find?_eq_none.2 (by simpa using hfirst)]
    simp [hk]
  obtain ⟨text, ht⟩ := helpful_output (.inl hline) hh (program_parts hc).1 (self_mem_nodes tree) hcol
    (fmt h).format.flattenHelp
  refine ⟨text, ?_, ?_⟩
  · unfold rootHelp
    rw [hfind]
    exact ht
  · rw [hline] at ht
    exact program_page hc hh hcol (self_mem_nodes tree) ht

/-- C98 is false: the page about an argument that takes two to 105 values says that it takes two to 15. -/
theorem C98_false : generateHelp formatRow hFormat hInfo 80 true (lFiles 105) =
    .ok (b "prog\n\n<files> [2,15]\n") := by
  decide +kernel

/-! ## There is only one page -/

/-- A node has at most one separator and one description (C74: true in every program). -/
structure _root_.ArgRouter.Spec.SingleTexts (n : Node) : Prop where
  separator : ∀ s t, Policy.valueSeparator s ∈ n.policies → Policy.valueSeparator t ∈ n.policies → s = t
  description : ∀ s t, Policy.description s ∈ n.policies → Policy.description t ∈ n.policies → s = t

section
variable {Num : Int → Bytes → Prop} (hnum : ∀ v t u, Num v t → Num v u → t = u)
include hnum

theorem rangeText_unique {info : HelpInfo} {n : Node} {t u : Bytes} (ht : RangeText Num info n t)
    (hu : RangeText Num info n u) : t = u := by
  cases ht with
  | none h => cases hu with
    | none => rfl
    | range h2 => exact absurd ⟨_, h2⟩ h
  | @range r lo hi h h1 h2 => cases hu with
    | none h3 => exact absurd ⟨_, h⟩ h3
    | @range r' lo' hi' h3 h4 h5 =>
      have hr : r = r' := by
        have := h.1.symm.trans h3.1
        exact Option.some.inj this
      subst hr
      have e1 : lo = lo' := by
        cases h1 <;> cases h4 <;> simp_all
        exact hnum _ _ _ ‹_› ‹_›
      have e2 : hi = hi' := by
        cases h2 <;> cases h5 <;> simp_all
        exact hnum _ _ _ ‹_› ‹_›
      rw [e1, e2]

theorem valuePlace_unique {info : HelpInfo} {n : Node} {t u : Bytes} (ht : ValuePlace Num info n t)
    (hu : ValuePlace Num info n u) : t = u := by
  cases ht with
  | value h => cases hu with
    | value => rfl
    | range h2 => exact absurd ⟨_, h2⟩ h
  | range h h1 => cases hu with
    | value h2 => exact absurd ⟨_, h⟩ h2
    | range _ h2 => exact rangeText_unique hnum h1 h2

theorem valueText_unique {info : HelpInfo} {n : Node} (hs : SingleTexts n) {t u : Bytes}
    (ht : ValueText Num info n t) (hu : ValueText Num info n u) : t = u := by
  cases ht with
  | separated h h1 => cases hu with
    | separated h2 h3 => rw [hs.separator _ _ h h2, valuePlace_unique hnum h1 h3]
    | spaced h2 => exact absurd h (h2 _)
    | none h2 => exact absurd h (h2 _)
  | spaced h h1 h2 => cases hu with
    | separated h3 => exact absurd h3 (h _)
    | spaced _ _ h3 => rw [valuePlace_unique hnum h2 h3]
    | none _ h3 => exact absurd h1 h3
  | none h h1 => cases hu with
    | separated h3 => exact absurd h3 (h _)
    | spaced _ h2 => exact absurd h2 h1
    | none => rfl

theorem countText_unique {n : Node} {t u : Bytes} (ht : CountText Num n t) (hu : CountText Num n u) :
    t = u := by
  cases ht <;> cases hu <;> simp_all
  · exact hnum _ _ _ ‹_› ‹_›
  · omega
  · rename_i h1 h2 _ h3 h4
    rw [hnum _ _ _ h1 h3, hnum _ _ _ h2 h4]
  · omega
  · exact hnum _ _ _ ‹_› ‹_›

omit hnum in
theorem namesText_unique {cfg : Config} {n : Node} {t u : Bytes} (ht : NamesText cfg n t)
    (hu : NamesText cfg n u) : t = u := by
  cases ht <;> cases hu <;> simp_all

theorem labelText_unique {info : HelpInfo} {n : Node} (hs : SingleTexts n) {t u : Bytes}
    (ht : LabelText Num info n t) (hu : LabelText Num info n u) : t = u := by
  cases ht with
  | leaf hk h1 h2 =>
    cases hu with
    | leaf _ h3 h4 => rw [namesText_unique h1 h3, valueText_unique hnum hs h2 h4]
    | multi hk2 => simp_all [List.mem_cons]; rcases hk with h | h | h | h <;> rw [h] at hk2 <;> simp at hk2
    | _ => simp_all
  | multi hk h1 h2 h3 =>
    cases hu with
    | multi _ h4 h5 h6 =>
      rw [namesText_unique h1 h4, valueText_unique hnum hs h2 h5, countText_unique hnum h3 h6]
    | leaf hk2 => simp_all [List.mem_cons]; rcases hk with h | h <;> rw [h] at hk2 <;> simp at hk2
    | _ => simp_all
  | positional hk h1 h2 =>
    cases hu with
    | positional _ h3 h4 =>
      rw [h1] at h3; cases h3
      rw [countText_unique hnum h2 h4]
    | _ => simp_all
  | aliasGroup hk h1 h2 =>
    cases hu with
    | aliasGroup _ h3 h4 =>
      rw [h1] at h3; cases h3
      rw [rangeText_unique hnum h2 h4]
    | _ => simp_all
  | oneOf hk h1 => cases hu <;> simp_all
  | mode hk ha h1 h2 =>
    cases hu with
    | mode _ _ h3 h4 => rw [namesText_unique h1 h3, valueText_unique hnum hs h2 h4]
    | _ => simp_all
  | anonymous hk ha => cases hu <;> simp_all
  | root hk => cases hu <;> simp_all

theorem column_unique {info : HelpInfo} {ind : Nat} {flatten : Bool} {target : Node}
    (hs : ∀ n ∈ target.nodes, SingleTexts n) {D E : Nat} (hD : IsColumn Num info ind flatten target D)
    (hE : IsColumn Num info ind flatten target E) : D = E := by
  have key : ∀ D E, IsColumn Num info ind flatten target D → IsColumn Num info ind flatten target E →
      D ≤ E := by
    rintro D E ⟨-, l, hl, t, w, h1, h2, h3⟩ ⟨h, -⟩
    obtain ⟨e, ⟨t', w', h4, h5, h6⟩, hle⟩ := h l hl
    rw [labelText_unique hnum (hs _ (helpLines_nodes _ _ _ l hl)) h1 h4, h5] at h2
    injection h2 with h2
    omega
  exact Nat.le_antisymm (key _ _ hD hE) (key _ _ hE hD)

end

theorem kept_unique (v : Int) (t u : Bytes) (ht : Kept v t) (hu : Kept v u) : t = u := by
  obtain ⟨ds, h1, rfl⟩ := ht
  obtain ⟨es, h2, rfl⟩ := hu
  rw [← C49_exact v ds h1, ← C49_exact v es h2]

section
variable {columns : Char → Nat} {isSpace : Char → Bool}

theorem sum_le_append (a c : List Char) : (a.map columns).sum ≤ ((a ++ c).map columns).sum := by
  rw [List.map_append, List.sum_append_nat]; omega

theorem endsAt_longer {opp : List Char → List Char → Prop} {n : Nat} {line after more after' : List Char}
    (h : Uax14.EndsAt columns opp n line after) (hm : more ++ after' = after) (hne : more ≠ [])
    (h2 : Uax14.EndsAt columns opp n (line ++ more) after') : False := by
  have hfit : ((line ++ more).map columns).sum ≤ n := by
    cases h2 <;> assumption
  have htext : line ++ more ++ after' = line ++ after := by rw [List.append_assoc, hm]
  cases h with
  | whole he => subst he; exact hne (List.append_eq_nil_iff.1 hm).1
  | opportunity tooLong can visible fits longest =>
    cases h2 with
    | whole he => subst he; rw [List.append_nil] at hm; subst hm; omega
    | opportunity _ can2 => exact absurd (longest _ _ hne hm can2) (by omega)
    | full _ _ cannot =>
      rcases cannot line after htext.symm can with h | h
      · omega
      · omega
  | full tooLong some cannot fits longest =>
    obtain ⟨c, hc, hl⟩ := longest
    cases more with
    | nil => exact hne rfl
    | cons x more =>
      subst hm
      simp only [List.cons_append, List.head?_cons, Option.mem_def, Option.some.injEq] at hc
      subst hc
      have := sum_le_append (columns := columns) (line ++ [x]) more
      rw [List.append_assoc] at this
      simp only [List.cons_append, List.nil_append] at this
      omega

theorem endsAt_unique {opp : List Char → List Char → Prop} {n : Nat} {l1 a1 l2 a2 : List Char}
    (h1 : Uax14.EndsAt columns opp n l1 a1) (h2 : Uax14.EndsAt columns opp n l2 a2)
    (h : l1 ++ a1 = l2 ++ a2) : l1 = l2 ∧ a1 = a2 := by
  rcases List.append_eq_append_iff.1 h with ⟨m, rfl, rfl⟩ | ⟨m, rfl, rfl⟩
  · by_cases hm : m = []
    · subst hm; simp
    · exact (endsAt_longer h1 rfl hm h2).elim
  · by_cases hm : m = []
    · subst hm; simp
    · exact (endsAt_longer h2 rfl hm h1).elim

theorem gap_unique {g1 r1 g2 r2 : List Char} (h : g1 ++ r1 = g2 ++ r2)
    (h1 : ∀ c ∈ g1, isSpace c = true) (h2 : ∀ c ∈ g2, isSpace c = true)
    (h3 : ∀ c ∈ r1.head?, isSpace c = false) (h4 : ∀ c ∈ r2.head?, isSpace c = false) :
    g1 = g2 ∧ r1 = r2 := by
  rcases List.append_eq_append_iff.1 h with ⟨m, rfl, rfl⟩ | ⟨m, rfl, rfl⟩
  · cases m with
    | nil => simp
    | cons c m =>
      have e := h3 c (by simp)
      rw [h2 c (by simp)] at e; cases e
  · cases m with
    | nil => simp
    | cons c m =>
      have e := h4 c (by simp)
      rw [h1 c (by simp)] at e; cases e

theorem greedy_unique {opp : List Char → List Char → List Char → Prop} {n : Nat} {before cs p1 p2}
    (h1 : Uax14.Greedy columns isSpace opp n before cs p1)
    (h2 : Uax14.Greedy columns isSpace opp n before cs p2) : p1 = p2 := by
  induction h1 generalizing p2 with
  | nothing =>
    generalize he : ([] : List Char) = cs at h2
    cases h2 with
    | nothing => rfl
    | line ends =>
      exfalso
      rw [eq_comm, List.append_eq_nil_iff, List.append_eq_nil_iff] at he
      obtain ⟨⟨rfl, rfl⟩, rfl⟩ := he
      cases ends <;> simp_all
  | @line before line gap rest ls ends spaces start more ih =>
    generalize he : line ++ gap ++ rest = cs at h2
    cases h2 with
    | nothing =>
      exfalso
      rw [List.append_eq_nil_iff, List.append_eq_nil_iff] at he
      obtain ⟨⟨rfl, rfl⟩, rfl⟩ := he
      cases ends <;> simp_all
    | @line _ line' gap' rest' ls' ends' spaces' start' more' =>
      rw [List.append_assoc, List.append_assoc] at he
      obtain ⟨rfl, h⟩ := endsAt_unique ends ends' he
      obtain ⟨rfl, rfl⟩ := gap_unique h spaces spaces' start start'
      rw [ih more']

end

theorem describedAs_unique {n : Node} (hs : SingleTexts n) {d e : Bytes} (hd : DescribedAs n d)
    (he : DescribedAs n e) : d = e := by
  cases hd with
  | text h1 h2 h3 => cases he with
    | text _ _ h4 => exact hs.description _ _ h3 h4
    | none h => rcases h with h | h | h
                · exact absurd h h1
                · exact absurd h h2
                · exact absurd h3 (h _)
  | none h => cases he with
    | text h1 h2 h3 => rcases h with h | h | h
                       · exact absurd h h1
                       · exact absurd h h2
                       · exact absurd h3 (h _)
    | none => rfl

/-- A description that is usual text. -/
def _root_.ArgRouter.Spec.UsualDescription (n : Node) : Prop :=
  ∀ d, DescribedAs n d → ∃ cs, d = enc cs ∧ Plain cs ∧ Uax14.UsualText cs

theorem lineText_unique {Num : Int → Bytes → Prop} (hnum : ∀ v t u, Num v t → Num v u → t = u)
    {info : HelpInfo} {ind D limit : Nat} {l : HelpLine} (hs : SingleTexts l.node) (hu : UsualDescription l.node)
    (hlim : 0 < limit) {t u : Bytes} (h1 : LineText Num info ind D limit l t)
    (h2 : LineText Num info ind D limit l u) : t = u := by
  have hl := fun t u => labelText_unique (n := l.node) hnum (info := info) hs (t := t) (u := u)
  have hd := fun d e => describedAs_unique (n := l.node) hs (d := d) (e := e)
  cases h1 with
  | unlabelled a1 a2 => cases h2 with
    | unlabelled => rfl
    | label b1 b2 => rw [hl _ _ b1 a1, a2] at b2; exact absurd rfl b2
    | described b1 b2 => rw [hl _ _ b1 a1, a2] at b2; exact absurd rfl b2
  | label a1 a2 a3 => cases h2 with
    | unlabelled b1 b2 => rw [hl _ _ a1 b1, b2] at a2; exact absurd rfl a2
    | label b1 => rw [hl _ _ a1 b1]
    | described _ _ b3 b4 => exact absurd (hd _ _ b3 a3) b4
  | described a1 a2 a3 a4 a5 a6 a7 a8 => cases h2 with
    | unlabelled b1 b2 => rw [hl _ _ a1 b1, b2] at a2; exact absurd rfl a2
    | label _ _ b3 => exact absurd (hd _ _ a3 b3) a4
    | described b1 b2 b3 b4 b5 b6 b7 b8 =>
      have e1 := hl _ _ a1 b1
      subst e1
      have e2 := hd _ _ a3 b3
      subst e2
      rw [a5] at b5
      injection b5 with e3
      subst e3
      obtain ⟨cs, rfl, hp, hus⟩ := hu _ a3
      obtain ⟨p1, rfl, -, g1⟩ := a8 cs rfl hp hlim
      obtain ⟨p2, rfl, -, g2⟩ := b8 cs rfl hp hlim
      rw [greedy_unique (g1 hus) (g2 hus)]
      congr 4
      omega

theorem zip_unique {α β : Type} {R : α → β → Prop} {l : List α} {m1 m2 : List β}
    (hr : ∀ a ∈ l, ∀ x y, R a x → R a y → x = y) (h1 : Zip R l m1) (h2 : Zip R l m2) : m1 = m2 := by
  induction h1 generalizing m2 with
  | nil => cases h2; rfl
  | cons r _ ih =>
    cases h2 with
    | cons r2 h2 =>
      rw [hr _ List.mem_cons_self _ _ r r2, ih (fun a ha => hr a (List.mem_cons_of_mem _ ha)) h2]

/-- C98: there is only one page. If the descriptions are usual text, the format, the labels, the
descriptions and the width of the terminal determine the whole page. -/
theorem C98_unique (f : HelpFormat) (ho : 0 < f.offset) (info : HelpInfo) (width : Nat)
    (flatten : Bool) (target : Node) (hs : ∀ n ∈ target.nodes, SingleTexts n)
    (hu : ∀ n ∈ target.nodes, UsualDescription n)
    (hsmall : ∀ D, IsColumn Kept info f.indent flatten target D → D < 2 ^ 31) (out out' : Bytes)
    (h : Page Kept f info width flatten target out) (h' : Page Kept f info width flatten target out') :
    out = out' := by
  obtain ⟨D, head, texts, tail, rfl, h1, h2, h3, h4⟩ := h
  obtain ⟨E, head', texts', tail', rfl, h1', h2', h3', h4'⟩ := h'
  have hD := column_unique kept_unique hs h3 h3'
  subst hD
  have hd := hsmall D h3
  have e1 : head = head' := by cases h1 <;> cases h1' <;> simp_all
  have e2 : tail = tail' := by cases h2 <;> cases h2' <;> simp_all
  have e3 : texts = texts' := by
    refine zip_unique (fun l hl x y hx hy => ?_) h4 h4'
    have hn := helpLines_nodes _ _ _ l hl
    refine lineText_unique kept_unique (hs _ hn) (hu _ hn) ?_ hx hy
    split <;> omega
  rw [e1, e2, e3]

/-- Every node of a program has at most one separator and one description. -/
theorem program_single {fmt : Node → Formatter} {info : HelpInfo} {columns depth : Nat} {tree n : Node}
    (hc : compiles info.cfg depth defaultRules (program fmt info columns tree) = true)
    (hn : n ∈ tree.nodes) : SingleTexts n := by
  obtain ⟨p, hp⟩ := mem_nodes.1 (mem_install (g := fun h ts =>
    helpParse (fmt h).line (fmt h).format info columns ts tree).2 ⟨n, hn, rfl⟩)
  obtain ⟨-, hacc, -⟩ := compiles_iff_parts hc
  have key : ∀ x y : Policy, x ∈ n.policies → y ∈ n.policies → x.kind = y.kind → x = y := by
    intro x y hx hy hxy
    have hsub : ∀ z ∈ n.policies, z ∈ (install (fun h ts =>
        helpParse (fmt h).line (fmt h).format info columns ts tree) n).policies := by
      intro z hz
      rw [install_policies]
      split
      · exact List.mem_cons_of_mem _ hz
      · exact hz
    obtain ⟨i, hi⟩ := List.mem_iff_getElem?.1 (hsub x hx)
    obtain ⟨j, hj⟩ := List.mem_iff_getElem?.1 (hsub y hy)
    have := C74_unique_policies hacc hp hi hj hxy
    subst this
    rw [hi] at hj
    exact Option.some.inj hj
  exact ⟨fun s t h1 h2 => by injection key _ _ h1 h2 rfl, fun s t h1 h2 => by injection key _ _ h1 h2 rfl⟩

/-! ## Examples -/

open AskHelpEx in
/-- The hypotheses are met by the program of C83. -/
example : ∃ text, rootHelp formats info 80 tree = .ok text ∧
    Page Kept (formats ask).format info 80 false tree text :=
  C98_root_partial formats info 80 100 tree ask (by decide +kernel) [run []] [] rfl
    (by decide +kernel) rfl rfl (tree_helpful _) (by decide)

/-- The lines of a page with a closed mode and a group. -/
example : (helpLines SwitchedOff false hRoot).map (fun l => (l.depth, l.place, l.node.uid)) =
    [(0, none, 9), (1, none, 1), (1, none, 4), (1, none, 8), (2, none, 7), (3, some (2, 0), 5),
     (3, some (2, 1), 6)] ∧
    (helpLines SwitchedOff true hRoot).map (fun l => l.node.uid) = [9, 1, 4, 2, 8, 7, 5, 6] ∧
    (helpLines (fun _ => false) true hRoot).map (fun l => l.node.uid) = [9, 1, 4, 2, 3, 8, 7, 5, 6] := by
  decide +kernel

open AskHelpEx in
/-- The hypotheses of the theorems about pages are met by the program of C83, whose descriptions are usual
text: so its page, shown there, is the only one. -/
theorem tree_page : (∀ n ∈ tree.nodes, Labelled n) ∧ (∀ n ∈ tree.nodes, SingleTexts n) ∧
    (∀ n ∈ tree.nodes, UsualDescription n) ∧ (∀ n ∈ tree.nodes, ∀ v, Figure info n v → NoInnerZero v) ∧
    ∀ D, IsColumn Kept info 4 true tree D → D < 2 ^ 31 := by
  have hc : compiles info.cfg 100 defaultRules (program formats info 80 tree) = true := by decide +kernel
  have hl : ∀ n ∈ tree.nodes, Labelled n := fun n hn => program_labelled hc hn
  have hs : ∀ n ∈ tree.nodes, SingleTexts n := fun n hn => program_single hc hn
  refine ⟨hl, hs, fun n hn d hd => ?_, fun n hn v hv ds hds => ?_, ?_⟩
  · have he := describedAs_unique (hs n hn) hd (described_as n)
    have : ∀ n ∈ tree.nodes, n.helpDescription ∈ ["", "Show this text", "How much", "Runs", "Do it"].map
        (fun s => enc s.toList) := by decide +kernel
    obtain ⟨t, ht, e⟩ := List.mem_map.1 (this n hn)
    have hu : ∀ t ∈ ["", "Show this text", "How much", "Runs", "Do it"],
        Lb.usualText t.toList = true ∧ Plain t.toList := by decide +kernel
    exact ⟨t.toList, by rw [he, ← e], (hu t ht).2, Lb.usualText_of (hu t ht).1⟩
  · have hm : ∀ n ∈ tree.nodes, n.minMaxCount ∈ [none, some (0, 0), some (1, 1), some (0, sizeMax)] := by
      decide +kernel
    have hv : v = 0 ∨ v = 1 := by
      have := hm n hn
      cases hv with
      | low h => simp [info] at h
      | high h => simp [info] at h
      | least h => rw [h] at this; simp at this; omega
      | most h hne => rw [h] at this; simp at this; omega
    have hlen := numDigits_decimal hds
    have : ds.length = 1 := by
      rcases hv with rfl | rfl
      · exact hlen.symm
      · exact hlen.symm
    intro d hd
    match ds, this with
    | [a], _ => simp at hd
  · rintro D ⟨-, l, hm, t, w, h1, h2, h3⟩
    have hn := helpLines_nodes _ _ _ l hm
    rw [labelText_unique kept_unique (hs _ hn) h1 (C82_exact info _ (hl _ hn))] at h2
    have hb : (helpLines (fun _ => false) true tree).all (fun l =>
        match terminalWidth (l.node.helpLabel info) with
        | .ok w => decide (l.depth * 4 + 2 + w + 4 < 2 ^ 31)
        | _ => false) = true := by decide +kernel
    have := List.all_eq_true.1 hb l hm
    rw [h2] at this
    have := of_decide_eq_true this
    split at h3 <;> omega

open AskHelpEx in
example : ∃ text, generateHelp formatRow (formats ask).format info 80 true tree = .ok text ∧
    Page Decimal (formats ask).format info 80 true tree text ∧
    ∀ text', Page Kept (formats ask).format info 80 true tree text' → text' = text := by
  obtain ⟨h1, h2, h3, h4, h5⟩ := tree_page
  have hc : compiles info.cfg 100 defaultRules (program formats info 80 tree) = true := by decide +kernel
  have ht := (program_parts hc).1
  obtain ⟨text, h⟩ := helpful_output (f := formats ask) (.inl rfl) (tree_helpful _) ht
    (self_mem_nodes tree) (columns := 80) (by decide) true
  refine ⟨text, h, ?_, fun text' h' => ?_⟩
  · refine page_of _ _ _ (by decide) _ _ ht (fun n hn => C82_label_partial info n (h1 n hn) (h4 n hn))
      (fun D hD _ => ?_) _ h
    exact descColumn_bound _ _ _ _ _ _ hD (by omega)
      ((tree_helpful ask).labels tree (self_mem_nodes _) true)
  · exact C98_unique _ (by decide) info 80 true tree h2 h3 h5 _ _ h'
      (C98_page_partial _ info 80 (by decide) true tree ht h1 h5 _ h)

end ArgRouter.Props

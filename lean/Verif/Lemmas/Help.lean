import Verif.Spec.Help
import Verif.Lemmas.ModeLoop
import Verif.Lemmas.Line

/-!
# Lemmas about the help data
-/

namespace ArgRouter
open Utf8 Spec

/-! ## Shapes -/

theorem _root_.ArgRouter.Spec.HelpTree.child {t c : Node} (h : HelpTree t) (hc : c ∈ t.children) : HelpTree c :=
  ⟨fun n hn => h.leaf n (child_mem_nodes hc n hn), fun n hn => h.group n (child_mem_nodes hc n hn),
    fun n hn => h.anon n (child_mem_nodes hc n hn), fun n hn => h.noRoot n (child_mem_nodes hc n hn)⟩

/-- The rows below a node that is no mode do not depend on flattening. -/
theorem runtimeRows_flatten {info : HelpInfo} {n : Node} (h : HelpTree n) (h1 : n.kind ≠ .mode)
    (h2 : n.kind ≠ .root) (f g : Bool) : runtimeRows info f n = runtimeRows info g n := by
  have hl := h.leaf n (self_mem_nodes n)
  obtain ⟨k, u, hh, v, p, cs⟩ := n
  cases k <;> simp_all [runtimeRows, Runnable, Node.kind, Node.children, defaultRows]

theorem defaultRows_flatten {info : HelpInfo} {cs : List Node}
    (h : ∀ c ∈ cs, HelpTree c ∧ c.kind ≠ .mode ∧ c.kind ≠ .root) (f g : Bool) :
    defaultRows info f cs = defaultRows info g cs := by
  induction cs with
  | nil => rfl
  | cons c cs ih =>
    obtain ⟨h1, h2, h3⟩ := h c List.mem_cons_self
    rw [defaultRows, defaultRows, runtimeRows_flatten h1 h2 h3 f g,
      ih fun x hx => h x (List.mem_cons_of_mem _ hx)]

theorem runtimeRows_leaf {info : HelpInfo} {n : Node} (h : HelpTree n) (hr : Runnable n = true)
    (f : Bool) : runtimeRows info f n = [] := by
  have hl := h.leaf n (self_mem_nodes n) hr
  obtain ⟨k, u, hh, v, p, cs⟩ := n
  simp only [Node.children] at hl
  subst hl
  cases k <;> simp_all [runtimeRows, Runnable, Node.kind, defaultRows]

/-- The rows of a group's members before the bars are added. -/
theorem defaultRows_group {info : HelpInfo} {cs : List Node}
    (h : ∀ c ∈ cs, HelpTree c ∧ Runnable c = true) (f : Bool) :
    defaultRows info f cs =
      (cs.filter Node.helpShown).map fun c => .mk (c.helpLabel info) c.helpDescription [] := by
  induction cs with
  | nil => rfl
  | cons c cs ih =>
    obtain ⟨h1, h2⟩ := h c List.mem_cons_self
    have ih := ih fun x hx => h x (List.mem_cons_of_mem _ hx)
    rw [defaultRows, ih, runtimeRows_leaf h1 h2]
    cases hs : c.helpShown <;> simp [List.filter, hs]

theorem staticHelps_eq (info : HelpInfo) (f : Bool) (cs : List Node) :
    staticHelps info f cs = cs.map (staticHelp info f) := by
  induction cs with
  | nil => rfl
  | cons c cs ih => rw [staticHelps, ih, List.map_cons]

theorem flatList_eq (d : Nat) (rs : List HelpRow) :
    HelpRow.flatList d rs = rs.flatMap (HelpRow.flat d) := by
  induction rs with
  | nil => rfl
  | cons r rs ih => rw [HelpRow.flatList, ih, List.flatMap_cons]

/-- A bar before a group member's label. -/
def IsBar (s : Bytes) : Prop := s = topBar ∨ s = middleBar ∨ s = bottomBar

theorem isBar_iff (s : Bytes) : IsBar s ↔ s ∈ [b "┌ ", b "├ ", b "└ "] := by
  simp [IsBar, topBar, middleBar, bottomBar]

/-- The rows with bars or unchanged, one for one. -/
theorem barsRest_zip (rs : List HelpRow) :
    Zip (fun r r' => ∃ bar, IsBar bar ∧ r' = prefixRuntime bar r) rs (barsRest rs) := by
  induction rs with
  | nil => exact .nil
  | cons r rs ih =>
    cases rs with
    | nil => exact .cons ⟨_, .inr (.inr rfl), rfl⟩ .nil
    | cons s rs => exact .cons ⟨_, .inr (.inl rfl), rfl⟩ ih

theorem _root_.ArgRouter.Spec.Zip.mono {α β : Type} {R S : α → β → Prop} {l m} (h : Zip R l m)
    (hm : ∀ a b, R a b → S a b) : Zip S l m := by
  induction h with
  | nil => exact .nil
  | cons hr _ ih => exact .cons (hm _ _ hr) ih

theorem barsRuntime_zip (rs : List HelpRow) :
    Zip (fun r r' => r' = r ∨ ∃ bar, IsBar bar ∧ r' = prefixRuntime bar r) rs (barsRuntime rs) := by
  match rs with
  | [] => exact .nil
  | [r] => exact .cons (.inl rfl) .nil
  | r :: s :: rs =>
    exact .cons (.inr ⟨_, .inl rfl, rfl⟩) ((barsRest_zip _).mono fun _ _ h => .inr h)

theorem _root_.ArgRouter.Spec.Zip.mem_right {α β : Type} {R : α → β → Prop} {l m} (h : Zip R l m) {y : β} (hy : y ∈ m) :
    ∃ x ∈ l, R x y := by
  induction h with
  | nil => simp at hy
  | cons hr _ ih =>
    rcases List.mem_cons.1 hy with rfl | hy
    · exact ⟨_, List.mem_cons_self, hr⟩
    · obtain ⟨x, hx, hr⟩ := ih hy
      exact ⟨x, List.mem_cons_of_mem _ hx, hr⟩

theorem _root_.ArgRouter.Spec.Zip.append {α β : Type} {R : α → β → Prop} {l m l' m'} (h : Zip R l m) (h' : Zip R l' m') :
    Zip R (l ++ l') (m ++ m') := by
  induction h with
  | nil => exact h'
  | cons hr _ ih => exact .cons hr ih

/-- Every member of a group has a row with a bar in the compile-time data. -/
theorem barsStatic_mem {r : HelpRow} {rs : List HelpRow} (h : r ∈ rs) :
    ∃ bar, IsBar bar ∧ prefixStatic bar r ∈ barsStatic rs := by
  cases rs with
  | nil => simp at h
  | cons s rs =>
    rw [barsStatic]
    rcases List.mem_cons.1 h with rfl | h
    · cases rs with
      | nil => exact ⟨bottomBar, .inr (.inr rfl), by simp⟩
      | cons t rs => exact ⟨topBar, .inl rfl, by simp⟩
    · have hne : rs ≠ [] := by rintro rfl; simp at h
      have hsplit : rs = rs.dropLast ++ [rs.getLast hne] := (List.dropLast_concat_getLast hne).symm
      rw [hsplit] at h
      rcases List.mem_append.1 h with h | h
      · refine ⟨middleBar, .inr (.inl rfl), List.mem_append_left _ ?_⟩
        rw [List.dropLast_cons_of_ne_nil (by simpa using hne)]
        refine List.mem_cons_of_mem _ ?_
        rw [← List.map_dropLast]
        exact List.mem_map_of_mem h
      · refine ⟨bottomBar, .inr (.inr rfl), List.mem_append_right _ ?_⟩
        rw [List.mem_singleton.1 h]
        simp [List.getLast_cons hne]

/-! ## Run-time rows against compile-time rows -/

/-- The run-time row `r` has a compile-time counterpart `s` at the same depth whose label is at least
as wide. -/
def Covered (r s : Nat × Bytes × Bytes) : Prop :=
  r.1 = s.1 ∧ (r.2.1 = s.2.1 ∨ ∃ x bar, IsBar bar ∧ s.2.1 = bar ++ x ∧
    (r.2.1 = x ∨ ∃ bar', IsBar bar' ∧ r.2.1 = bar' ++ x))

/-- The compile-time children of a node. -/
def staticKids (info : HelpInfo) (f : Bool) (n : Node) : List HelpRow :=
  match staticHelp info f n with
  | .mk _ _ cs => cs

theorem staticHelp_eq (info : HelpInfo) (f : Bool) (n : Node) :
    staticHelp info f n = .mk (n.helpLabel info) n.helpDescription (staticKids info f n) := by
  obtain ⟨k, u, h, v, p, cs⟩ := n
  unfold staticKids
  cases k <;> simp only [staticHelp]

mutual
theorem runtimeRows_covered (info : HelpInfo) (f : Bool) : ∀ (n : Node), HelpTree n → ∀ d,
    ∀ r ∈ HelpRow.flatList d (runtimeRows info f n),
      ∃ s ∈ HelpRow.flatList d (staticKids info f n), Covered r s
  | .mk k u h v p cs, ht, d, r, hr => by
    have hch : ∀ c ∈ cs, HelpTree c := fun c hc => ht.child (c := c) hc
    have hnr : ∀ c ∈ cs, c.kind ≠ .root := fun c hc => ht.noRoot _ (self_mem_nodes _) c hc
    have hleaf : Runnable (.mk k u h v p cs) = true → cs = [] := ht.leaf _ (self_mem_nodes _)
    have hgroup : IsGroup (.mk k u h v p cs) → ∀ g, r ∈ HelpRow.flatList d
        (barsRuntime (defaultRows info true cs)) →
        ∃ s ∈ HelpRow.flatList d (barsStatic (staticHelps info g cs)), Covered r s := by
      intro hg g hr
      have hrun : ∀ c ∈ cs, Runnable c = true := ht.group _ (self_mem_nodes _) hg
      rw [defaultRows_group fun c hc => ⟨hch c hc, hrun c hc⟩] at hr
      rw [flatList_eq] at hr
      obtain ⟨row, hrow, hr⟩ := List.mem_flatMap.1 hr
      obtain ⟨row0, hrow0, hrel⟩ := (barsRuntime_zip _).mem_right hrow
      obtain ⟨c, hc, rfl⟩ := List.mem_map.1 hrow0
      have hc' : c ∈ cs := (List.mem_filter.1 hc).1
      obtain ⟨bar, hbar, hst⟩ := barsStatic_mem
        (show staticHelp info g c ∈ staticHelps info g cs by
          rw [staticHelps_eq]; exact List.mem_map_of_mem hc')
      rw [staticHelp_eq, prefixStatic] at hst
      refine ⟨(d, bar ++ c.helpLabel info, c.helpDescription), ?_, ?_⟩
      · rw [flatList_eq]
        exact List.mem_flatMap.2 ⟨_, hst, by simp [HelpRow.flat]⟩
      · rcases hrel with rfl | ⟨bar', hb', rfl⟩
        · simp only [HelpRow.flat, HelpRow.flatList, List.mem_singleton] at hr
          subst hr
          exact ⟨rfl, .inr ⟨_, _, hbar, rfl, .inl rfl⟩⟩
        · simp only [prefixRuntime, HelpRow.flat, HelpRow.flatList, List.mem_singleton] at hr
          subst hr
          exact ⟨rfl, .inr ⟨_, _, hbar, rfl, .inr ⟨_, hb', rfl⟩⟩⟩
    have hkids := fun g => defaultRows_covered info g cs hch d
    cases k with
    | root =>
      simp only [runtimeRows] at hr
      simp only [staticKids, staticHelp]
      exact hkids f r hr
    | mode =>
      simp only [runtimeRows] at hr
      simp only [staticKids, staticHelp]
      by_cases ha : (Node.mk .mode u h v p cs).isAnonymous = true
      · have hnm := ht.anon _ (self_mem_nodes _) rfl ha
        simp only [ha, Bool.true_or, if_true] at hr ⊢
        rw [defaultRows_flatten (fun c hc => ⟨hch c hc, hnm c hc, hnr c hc⟩) true f] at hr
        exact hkids f r hr
      · simp only [ha, Bool.false_or] at hr ⊢
        cases f with
        | true => simp only [if_true] at hr ⊢; exact hkids true r hr
        | false => simp [HelpRow.flatList] at hr
    | aliasGroup =>
      simp only [runtimeRows] at hr
      simp only [staticKids, staticHelp]
      exact hgroup (.inl rfl) f hr
    | oneOf =>
      simp only [runtimeRows] at hr
      simp only [staticKids, staticHelp]
      exact hgroup (.inr rfl) f hr
    | _ =>
      have := hleaf rfl
      subst this
      simp [runtimeRows, defaultRows, HelpRow.flatList] at hr
theorem defaultRows_covered (info : HelpInfo) (f : Bool) : ∀ (cs : List Node),
    (∀ c ∈ cs, HelpTree c) → ∀ d, ∀ r ∈ HelpRow.flatList d (defaultRows info f cs),
      ∃ s ∈ HelpRow.flatList d (staticHelps info f cs), Covered r s
  | [], _, d, r, hr => by simp [defaultRows, HelpRow.flatList] at hr
  | c :: cs, h, d, r, hr => by
    have ih := defaultRows_covered info f cs (fun x hx => h x (List.mem_cons_of_mem _ hx)) d r
    rw [staticHelps, HelpRow.flatList]
    rw [defaultRows] at hr
    split at hr
    · rw [HelpRow.flatList] at hr
      rcases List.mem_append.1 hr with hr | hr
      · rw [HelpRow.flat] at hr
        rw [staticHelp_eq, HelpRow.flat]
        rcases List.mem_cons.1 hr with rfl | hr
        · exact ⟨_, List.mem_append_left _ List.mem_cons_self, rfl, .inl rfl⟩
        · obtain ⟨s, hs, hcov⟩ := runtimeRows_covered info f c (h c List.mem_cons_self) (d + 1) r hr
          exact ⟨s, List.mem_append_left _ (List.mem_cons_of_mem _ hs), hcov⟩
      · obtain ⟨s, hs, hcov⟩ := ih hr
        exact ⟨s, List.mem_append_right _ hs, hcov⟩
    · obtain ⟨s, hs, hcov⟩ := ih hr
      exact ⟨s, List.mem_append_right _ hs, hcov⟩
end

theorem runtimeHelp_covered (info : HelpInfo) (f : Bool) (n : Node) (h : HelpTree n) :
    ∀ r ∈ (runtimeHelp info f n).flat 0, ∃ s ∈ (staticHelp info f n).flat 0, Covered r s := by
  intro r hr
  rw [runtimeHelp, HelpRow.flat] at hr
  rw [staticHelp_eq, HelpRow.flat]
  rcases List.mem_cons.1 hr with rfl | hr
  · exact ⟨_, List.mem_cons_self, rfl, .inl rfl⟩
  · obtain ⟨s, hs, hc⟩ := runtimeRows_covered info f n h 1 r hr
    exact ⟨s, List.mem_cons_of_mem _ hs, hc⟩

/-! ## Widths -/

theorem terminalWidthAux_cons {c : Char} (h : leadDForEF c = false) (s : Bytes) :
    ∀ fuel w, (encChar c ++ s).length ≤ fuel → terminalWidthAux fuel w (encChar c ++ s)
      = terminalWidthAux (fuel - 1) (w + colW c) s := by
  intro fuel w hf
  have hne : encChar c ++ s ≠ [] := by
    have := encChar_ne_nil c
    simp [this]
  cases fuel with
  | zero =>
    exfalso
    cases hh : encChar c ++ s with
    | nil => exact hne hh
    | cons _ _ => rw [hh] at hf; simp at hf
  | succ fuel =>
    have hstep : terminalWidthAux (fuel + 1) w (encChar c ++ s) =
        (cpNext (encChar c ++ s)).bind fun s' =>
          terminalWidthAux fuel (w + cpWidth (cpDeref (encChar c ++ s))) s' := by
      cases hh : encChar c ++ s with
      | nil => exact absurd hh hne
      | cons _ _ => rfl
    rw [hstep, cpNext_encChar s h, cpDeref_encChar s h]
    rfl

theorem terminalWidthAux_shift (fuel : Nat) : ∀ (w : Nat) (s : Bytes) (v : Nat),
    terminalWidthAux fuel w s = .ok v ↔ ∃ u, terminalWidthAux fuel 0 s = .ok u ∧ v = w + u := by
  induction fuel with
  | zero =>
    intro w s v
    cases s with
    | nil => simp [terminalWidthAux, eq_comm]
    | cons _ _ => simp [terminalWidthAux]
  | succ fuel ih =>
    intro w s v
    cases s with
    | nil => simp [terminalWidthAux, eq_comm]
    | cons x s =>
      simp only [terminalWidthAux]
      cases hn : cpNext (x :: s) with
      | ok s' =>
        simp only [Out.ok_bind]
        rw [ih]
        constructor
        · rintro ⟨u, hu, rfl⟩
          exact ⟨cpWidth (cpDeref (x :: s)) + u, (ih _ _ _).2 ⟨u, hu, by simp⟩, by omega⟩
        · rintro ⟨u, hu, rfl⟩
          obtain ⟨u', hu', rfl⟩ := (ih _ _ _).1 hu
          exact ⟨u', hu', by omega⟩
      | _ => simp

theorem cpNext_shrinks {x : UInt8} {s s' : Bytes} (h : cpNext (x :: s) = .ok s') :
    s'.length ≤ s.length := by
  unfold cpNext at h
  split at h
  · injection h with h
    have h1 : 1 ≤ cpSize (x :: s) := by
      unfold cpSize; dsimp only; repeat' split
      all_goals omega
    rw [← h, List.length_drop]
    simp only [List.length_cons]; omega
  · simp at h

theorem terminalWidthAux_enough : ∀ (fuel : Nat) (s : Bytes) (w : Nat), s.length ≤ fuel →
    terminalWidthAux fuel w s = terminalWidthAux s.length w s := by
  intro fuel
  induction fuel using Nat.strongRecOn with
  | ind fuel ih =>
    intro s w h
    cases s with
    | nil => cases fuel <;> rfl
    | cons x s =>
      cases fuel with
      | zero => simp at h
      | succ fuel =>
        simp only [terminalWidthAux, List.length_cons] at h ⊢
        cases hn : cpNext (x :: s) with
        | ok s' =>
          have hs := cpNext_shrinks hn
          simp only [Out.ok_bind]
          rw [ih fuel (by omega) s' _ (by omega), ih s.length (by omega) s' _ hs]
        | _ => rfl

/-- A bar is two columns wide. -/
theorem terminalWidth_bar {bar : Bytes} (hb : IsBar bar) (x : Bytes) (W : Nat) :
    terminalWidth (bar ++ x) = .ok W ↔ ∃ u, terminalWidth x = .ok u ∧ W = 2 + u := by
  have key : ∀ c : Char, leadDForEF c = false → colW c = 1 → bar = encChar c ++ encChar ' ' →
      (terminalWidth (bar ++ x) = .ok W ↔ ∃ u, terminalWidth x = .ok u ∧ W = 2 + u) := by
    intro c hc hw he
    subst he
    have hsp : colW ' ' = 1 := by decide +kernel
    have h1 := List.length_pos_iff.2 (encChar_ne_nil c)
    have h2 := List.length_pos_iff.2 (encChar_ne_nil ' ')
    rw [terminalWidth, List.append_assoc, terminalWidthAux_cons hc _ _ _ (Nat.le_refl _),
      terminalWidthAux_cons (by decide) _ _ _ (by simp only [List.length_append]; omega), hw, hsp,
      terminalWidthAux_enough _ _ _ (by simp only [List.length_append]; omega),
      terminalWidthAux_shift]
    rfl
  rcases hb with rfl | rfl | rfl
  · exact key '┌' (by decide) (by decide +kernel) (by decide +kernel)
  · exact key '├' (by decide) (by decide +kernel) (by decide +kernel)
  · exact key '└' (by decide) (by decide +kernel) (by decide +kernel)

theorem Covered.width {r s : Nat × Bytes × Bytes} (h : Covered r s) {w : Nat}
    (hw : terminalWidth s.2.1 = .ok w) : ∃ u, terminalWidth r.2.1 = .ok u ∧ u ≤ w := by
  rcases h.2 with h | ⟨x, bar, hb, hs, h | ⟨bar', hb', h⟩⟩
  · exact ⟨w, by rw [h]; exact hw, Nat.le_refl _⟩
  · rw [hs, terminalWidth_bar hb] at hw
    obtain ⟨u, hu, rfl⟩ := hw
    exact ⟨u, by rw [h]; exact hu, by omega⟩
  · rw [hs, terminalWidth_bar hb] at hw
    obtain ⟨u, hu, rfl⟩ := hw
    exact ⟨2 + u, by rw [h, terminalWidth_bar hb']; exact ⟨u, hu, rfl⟩, Nat.le_refl _⟩

/-! ## The description column -/

mutual
theorem descColumn_spec (ind : Nat) : ∀ (row : HelpRow) (d m D : Nat), descColumn ind d row m = .ok D →
    m ≤ D ∧ ∀ r ∈ row.flat d, ∃ w, terminalWidth r.2.1 = .ok w ∧ r.1 * ind + w + ind ≤ D
  | .mk l ds cs, d, m, D, h => by
    rw [descColumn] at h
    cases hw : terminalWidth l with
    | ok w =>
      rw [hw] at h
      simp only [Out.ok_bind] at h
      obtain ⟨h1, h2⟩ := descColumns_spec ind cs _ _ _ h
      refine ⟨by omega, fun r hr => ?_⟩
      rw [HelpRow.flat] at hr
      rcases List.mem_cons.1 hr with rfl | hr
      · exact ⟨w, hw, by dsimp only; omega⟩
      · exact h2 r hr
    | _ => rw [hw] at h; simp at h
theorem descColumns_spec (ind : Nat) : ∀ (rows : List HelpRow) (d m D : Nat),
    descColumns ind d rows m = .ok D →
    m ≤ D ∧ ∀ r ∈ HelpRow.flatList d rows, ∃ w, terminalWidth r.2.1 = .ok w ∧
      r.1 * ind + w + ind ≤ D
  | [], d, m, D, h => by
    simp only [descColumns, Out.ok.injEq] at h
    exact ⟨by omega, by simp [HelpRow.flatList]⟩
  | row :: rows, d, m, D, h => by
    rw [descColumns] at h
    cases hd : descColumn ind d row m with
    | ok m' =>
      rw [hd] at h
      simp only [Out.ok_bind] at h
      obtain ⟨h1, h2⟩ := descColumn_spec ind row _ _ _ hd
      obtain ⟨h3, h4⟩ := descColumns_spec ind rows _ _ _ h
      refine ⟨by omega, fun r hr => ?_⟩
      rw [HelpRow.flatList] at hr
      rcases List.mem_append.1 hr with hr | hr
      · obtain ⟨w, hw, hle⟩ := h2 r hr
        exact ⟨w, hw, by omega⟩
      · exact h4 r hr
    | _ => rw [hd] at h; simp at h
end

mutual
theorem descColumn_total (ind : Nat) : ∀ (row : HelpRow) (d m : Nat),
    (∀ r ∈ row.flat d, ∃ w, terminalWidth r.2.1 = .ok w) → ∃ D, descColumn ind d row m = .ok D
  | .mk l ds cs, d, m, h => by
    rw [descColumn]
    rw [HelpRow.flat] at h
    obtain ⟨w, hw⟩ := h _ List.mem_cons_self
    dsimp only at hw
    rw [hw]
    simp only [Out.ok_bind]
    exact descColumns_total ind cs _ _ fun r hr => h r (List.mem_cons_of_mem _ hr)
theorem descColumns_total (ind : Nat) : ∀ (rows : List HelpRow) (d m : Nat),
    (∀ r ∈ HelpRow.flatList d rows, ∃ w, terminalWidth r.2.1 = .ok w) →
    ∃ D, descColumns ind d rows m = .ok D
  | [], d, m, h => ⟨m, rfl⟩
  | row :: rows, d, m, h => by
    rw [descColumns]
    rw [HelpRow.flatList] at h
    obtain ⟨D, hD⟩ := descColumn_total ind row d m fun r hr => h r (List.mem_append_left _ hr)
    rw [hD]
    simp only [Out.ok_bind]
    exact descColumns_total ind rows _ _ fun r hr => h r (List.mem_append_right _ hr)
end

/-! ## Gaps -/

theorem sizeSub_eq {a c : Nat} (h : c ≤ a) (ha : a < 2 ^ 64) : sizeSub a c = a - c := by
  unfold sizeSub
  have : c % 2 ^ 64 = c := Nat.mod_eq_of_lt (by omega)
  rw [this]
  omega

theorem setwSpace_eq {n : Nat} (h1 : 1 ≤ n) (h : n < 2 ^ 31) : setwSpace n = spaces n := by
  unfold setwSpace
  have : n % 2 ^ 32 = n := Nat.mod_eq_of_lt (by omega)
  rw [this]
  dsimp only
  rw [if_pos h, Nat.max_eq_right h1]

theorem setGap_eq {n : Nat} (h : n < 2 ^ 31) : setGap n = spaces n := by
  unfold setGap
  by_cases hz : n = 0
  · subst hz; rfl
  · rw [if_pos (by omega), setwSpace_eq (by omega) h]

/-! ## Rows against nodes -/

theorem listed_child {f : Bool} {c : Node} {ps : List Node} (hps : ps ≠ []) :
    Listed f (c, ps) = (c.helpShown && Listed f (ps.head hps, ps.tail) &&
      !Closed f (ps.head hps)) := by
  cases ps with
  | nil => exact absurd rfl hps
  | cons p ps =>
    simp only [Listed, List.dropLast, List.all_cons, List.head_cons, List.tail_cons, SwitchedOff,
      Node.helpShown]
    rw [Bool.eq_iff_iff]
    simp only [Bool.and_eq_true, bne]
    constructor
    · rintro ⟨⟨h1, h2⟩, h3, h4⟩; exact ⟨⟨h1, h2, h4⟩, h3⟩
    · rintro ⟨⟨h1, h2, h4⟩, h3⟩; exact ⟨⟨h1, h2⟩, h3, h4⟩

theorem listed_suffix {f : Bool} {x q : Node} {l qs : List Node}
    (h : Listed f (x, l ++ q :: qs) = true) : Listed f (q, qs) = true ∧ Closed f q = false := by
  induction l generalizing x with
  | nil =>
    rw [List.nil_append, listed_child (by simp)] at h
    simp only [List.head_cons, List.tail_cons, Bool.and_eq_true, Bool.not_eq_true'] at h
    exact ⟨h.1.2, h.2⟩
  | cons y l ih =>
    rw [List.cons_append, listed_child (by simp)] at h
    simp only [List.head_cons, List.tail_cons, Bool.and_eq_true] at h
    exact ih h.1.2

mutual
theorem walk_suffix : ∀ (n : Node) (ps : List Node), ∀ x ∈ Node.walk ps n,
    x = (n, ps) ∨ ∃ l, x.2 = l ++ n :: ps
  | .mk k u h v p cs, ps, x, hx => by
    rw [Node.walk] at hx
    rcases List.mem_cons.1 hx with rfl | hx
    · exact .inl rfl
    · obtain ⟨l, hl⟩ := walkList_suffix cs _ x hx
      exact .inr ⟨l, hl⟩
theorem walkList_suffix : ∀ (cs : List Node) (ps : List Node), ∀ x ∈ Node.walkList ps cs,
    ∃ l, x.2 = l ++ ps
  | [], ps, x, hx => by simp [Node.walkList] at hx
  | c :: cs, ps, x, hx => by
    rw [Node.walkList] at hx
    rcases List.mem_append.1 hx with hx | hx
    · rcases walk_suffix c ps x hx with rfl | ⟨l, hl⟩
      · exact ⟨[], rfl⟩
      · exact ⟨l ++ [c], by rw [hl]; simp⟩
    · exact walkList_suffix cs ps x hx
end

theorem filter_eq_nil_of {α : Type} {p : α → Bool} {l : List α} (h : ∀ x ∈ l, p x = false) :
    l.filter p = [] := by
  rw [List.filter_eq_nil_iff]; intro x hx; simp [h x hx]

theorem walk_eq (n : Node) (ps : List Node) :
    Node.walk ps n = (n, ps) :: Node.walkList (n :: ps) n.children := by
  obtain ⟨k, u, h, v, p, cs⟩ := n
  rw [Node.walk]; rfl

theorem walkList_leaves {cs : List Node} (h : ∀ c ∈ cs, c.children = []) (ps : List Node) :
    Node.walkList ps cs = cs.map fun c => (c, ps) := by
  induction cs with
  | nil => rfl
  | cons c cs ih =>
    rw [Node.walkList, walk_eq, h c List.mem_cons_self, ih fun x hx => h x (List.mem_cons_of_mem _ hx)]
    rfl

theorem _root_.ArgRouter.Spec.Zip.of_map {α β γ : Type} {R : β → γ → Prop} {S : α → β → Prop}
    {g : α → γ} {l : List α} {m : List β} (h : Zip S l m) (hR : ∀ a b, S a b → R b (g a)) :
    Zip R m (l.map g) := by
  induction h with
  | nil => exact .nil
  | cons hr _ ih => exact .cons (hR _ _ hr) ih

theorem zip_map_left {α β γ : Type} {S : β → γ → Prop} {f : α → β} {l : List α} {m : List γ}
    (h : Zip S (l.map f) m) : Zip (fun a c => S (f a) c) l m := by
  induction l generalizing m with
  | nil => cases h; exact .nil
  | cons a l ih =>
    cases h with
    | cons hr ht => exact .cons hr (ih ht)

theorem flatList_leaf_rows (d : Nat) {rs : List HelpRow} (h : ∀ r ∈ rs, ∃ l ds, r = .mk l ds []) :
    HelpRow.flatList d rs = rs.map fun r => match r with | .mk l ds _ => (d, l, ds) := by
  induction rs with
  | nil => rfl
  | cons r rs ih =>
    obtain ⟨l, ds, rfl⟩ := h r List.mem_cons_self
    rw [HelpRow.flatList, ih fun x hx => h x (List.mem_cons_of_mem _ hx)]
    simp [HelpRow.flat, HelpRow.flatList]

theorem zip_map_right {α β γ : Type} {S : α → γ → Prop} {f : β → γ} {l : List α} {m : List β}
    (h : Zip (fun a c => S a (f c)) l m) : Zip S l (m.map f) := by
  induction h with
  | nil => exact .nil
  | cons hr _ ih => exact .cons hr ih

theorem _root_.ArgRouter.Spec.Zip.symm {α β : Type} {R : α → β → Prop} {l : List α} {m : List β}
    (h : Zip R l m) : Zip (fun b a => R a b) m l := by
  induction h with
  | nil => exact .nil
  | cons hr _ ih => exact .cons hr ih

theorem group_zip (info : HelpInfo) (f : Bool) (n : Node) (ht : HelpTree n) (ps : List Node)
    (hL : Listed f (n, ps) = true) (hg : IsGroup n) :
    Zip (RowOf info)
      (HelpRow.flatList (ps.length + 1) (barsRuntime (defaultRows info true n.children)))
      ((Node.walkList (n :: ps) n.children).filter (Listed f)) := by
  have hrun := ht.group n (self_mem_nodes n) hg
  have hch : ∀ c ∈ n.children, HelpTree c := fun c hc => ht.child hc
  have hleaf : ∀ c ∈ n.children, c.children = [] := fun c hc =>
    (hch c hc).leaf c (self_mem_nodes c) (hrun c hc)
  rw [defaultRows_group fun c hc => ⟨hch c hc, hrun c hc⟩, walkList_leaves hleaf, List.filter_map]
  have hcl : Closed f n = false := by
    rcases hg with h | h <;> simp [Closed, h]
  have hf : (Listed f ∘ fun c => (c, n :: ps)) = Node.helpShown := by
    funext c
    simp only [Function.comp]
    rw [listed_child (by simp)]
    simp [hL, hcl]
  rw [hf]
  have hz := zip_map_left (barsRuntime_zip ((n.children.filter Node.helpShown).map
    fun c => .mk (c.helpLabel info) c.helpDescription []))
  rw [flatList_leaf_rows]
  · have : Zip (fun c row => RowOf info row (c, n :: ps)) (n.children.filter Node.helpShown)
        ((barsRuntime ((n.children.filter Node.helpShown).map
          fun c => .mk (c.helpLabel info) c.helpDescription [])).map
            fun r => match r with | .mk l ds _ => (ps.length + 1, l, ds)) := by
      refine zip_map_right (hz.mono ?_)
      rintro c row (rfl | ⟨bar, hb, rfl⟩)
      · exact ⟨rfl, .inl rfl, rfl⟩
      · exact ⟨rfl, .inr ⟨⟨n, ps, rfl, hg⟩, bar, (isBar_iff bar).1 hb, rfl⟩, rfl⟩
    exact this.of_map fun _ _ h => h
  · intro r hr
    obtain ⟨c, _, hrel⟩ := hz.mem_right hr
    rcases hrel with rfl | ⟨bar, _, rfl⟩
    · exact ⟨_, _, rfl⟩
    · exact ⟨_, _, rfl⟩

mutual
theorem runtimeRows_zip (info : HelpInfo) (f : Bool) : ∀ (n : Node), HelpTree n → ∀ ps,
    Listed f (n, ps) = true →
    Zip (RowOf info) (HelpRow.flatList (ps.length + 1) (runtimeRows info f n))
      ((Node.walkList (n :: ps) n.children).filter (Listed f))
  | .mk k u h v p cs, ht, ps, hL => by
    have hch : ∀ c ∈ cs, HelpTree c := fun c hc => ht.child (c := c) hc
    have hnr : ∀ c ∈ cs, c.kind ≠ .root := fun c hc => ht.noRoot _ (self_mem_nodes _) c hc
    have hleaf : Runnable (.mk k u h v p cs) = true → cs = [] := ht.leaf _ (self_mem_nodes _)
    have hkids := defaultRows_zip info f cs hch (.mk k u h v p cs) ps hL
    cases k with
    | root => simp only [runtimeRows]; exact hkids rfl
    | mode =>
      simp only [runtimeRows]
      by_cases ha : (Node.mk .mode u h v p cs).isAnonymous = true
      · have hnm := ht.anon _ (self_mem_nodes _) rfl ha
        simp only [ha, Bool.true_or, if_true]
        rw [defaultRows_flatten (fun c hc => ⟨hch c hc, hnm c hc, hnr c hc⟩) true f]
        exact hkids (by simp [Closed, ha])
      · simp only [ha, Bool.false_or]
        cases f with
        | true => simp only [if_true]; exact hkids (by simp [Closed])
        | false =>
          have hc : Closed false (Node.mk .mode u h v p cs) = true := by
            simp [Closed, ha, Node.kind]
          rw [filter_eq_nil_of]
          · simp only [Bool.false_eq_true, if_false, HelpRow.flatList]; exact .nil
          · intro x hx
            obtain ⟨l, hl⟩ := walkList_suffix _ _ x hx
            cases hx2 : Listed false x with
            | false => rfl
            | true =>
              have : x = (x.1, l ++ Node.mk .mode u h v p cs :: ps) := by rw [← hl]
              rw [this] at hx2
              rw [(listed_suffix hx2).2] at hc
              simp at hc
    | aliasGroup => simp only [runtimeRows]; exact group_zip info f _ ht ps hL (.inl rfl)
    | oneOf => simp only [runtimeRows]; exact group_zip info f _ ht ps hL (.inr rfl)
    | _ =>
      have := hleaf rfl
      subst this
      simp only [runtimeRows, defaultRows, HelpRow.flatList, Node.children, Node.walkList]
      exact .nil
theorem defaultRows_zip (info : HelpInfo) (f : Bool) : ∀ (cs : List Node),
    (∀ c ∈ cs, HelpTree c) → ∀ n ps, Listed f (n, ps) = true → Closed f n = false →
    Zip (RowOf info) (HelpRow.flatList (ps.length + 1) (defaultRows info f cs))
      ((Node.walkList (n :: ps) cs).filter (Listed f))
  | [], _, n, ps, hL, hc => by
    simp only [defaultRows, HelpRow.flatList, Node.walkList]; exact .nil
  | c :: cs, h, n, ps, hL, hc => by
    have ih := defaultRows_zip info f cs (fun x hx => h x (List.mem_cons_of_mem _ hx)) n ps hL hc
    have hc' := h c List.mem_cons_self
    have hlc : Listed f (c, n :: ps) = c.helpShown := by
      rw [listed_child (by simp)]; simp [hL, hc]
    rw [defaultRows, Node.walkList, List.filter_append]
    split
    · rename_i hs
      rw [HelpRow.flatList]
      refine Zip.append ?_ ih
      rw [HelpRow.flat, walk_eq, List.filter_cons, if_pos (by rw [hlc]; exact hs)]
      exact .cons ⟨rfl, .inl rfl, rfl⟩ (runtimeRows_zip info f c hc' (n :: ps) (by rw [hlc]; exact hs))
    · rename_i hs
      rw [filter_eq_nil_of]
      · exact ih
      · intro x hx
        cases hx2 : Listed f x with
        | false => rfl
        | true =>
          rcases walk_suffix c _ x hx with rfl | ⟨l, hl⟩
          · rw [hlc] at hx2; exact absurd hx2 hs
          · have : x = (x.1, l ++ c :: n :: ps) := by rw [← hl]
            rw [this] at hx2
            have := (listed_suffix hx2).1
            rw [hlc] at this
            exact absurd this hs
end

end ArgRouter

import Verif.Lemmas.Grown
import Verif.Spec.Help

/-!
# C110: a new optional argument leaves old command lines alone
-/

namespace ArgRouter

open Spec Utf8

namespace Props

/-! ## Which mode runs -/

theorem label_policies {cfg : Config} {m m' : Node} {t : Token} (h : m.policies = m'.policies) :
    IsLabel cfg m t ↔ IsLabel cfg m' t := by
  unfold IsLabel Spelled Node.longName Node.shortName Node.noneName
  rw [h]

theorem namedMode_policies {m m' : Node} (h : m.policies = m'.policies) (hk : m'.kind = .mode)
    (hm : NamedMode m) : NamedMode m' := by
  refine ⟨hk, ?_, ?_⟩
  · have := hm.named
    unfold Node.isAnonymous Node.noneName at this ⊢
    rw [← h]; exact this
  · have := hm.matching
    unfold MatchPolicies at this ⊢
    rw [← h]; exact this

theorem added_node {c d d' : Node} {uid k : Nat} (h : AddedTo c uid k d d') :
    ∃ g ∈ d.nodes, g.uid = uid := by
  induction h with
  | here => exact ⟨_, self_mem_nodes _, rfl⟩
  | @inside k u h h' v p before after d d' _ ih =>
    obtain ⟨g, h1, h2⟩ := ih
    exact ⟨g, child_mem_nodes (n := .mk .mode u h v p (before ++ d :: after))
      (by simp [Node.children]) _ h1, h2⟩

/-- The objects in the tree are different ones. -/
def Objects (n : Node) : Prop := (n.nodes.map Node.uid).Nodup

theorem objects_children {n : Node} (h : Objects n) :
    (∀ y ∈ nodesList n.children, y.uid ≠ n.uid) ∧ ((nodesList n.children).map Node.uid).Nodup := by
  obtain ⟨k, u, hh, v, p, cs⟩ := n
  unfold Objects at h
  rw [nodes_mk, List.map_cons, List.nodup_cons] at h
  refine ⟨fun y hy he => h.1 ?_, h.2⟩
  rw [← he]
  exact List.mem_map.2 ⟨y, hy, rfl⟩

theorem objects_split {before after : List Node} {d : Node}
    (h : ((nodesList (before ++ d :: after)).map Node.uid).Nodup) :
    Objects d ∧ ∀ g ∈ d.nodes, ∀ x, x ∈ before ∨ x ∈ after → ∀ y ∈ x.nodes, y.uid ≠ g.uid := by
  rw [nodesList_append, nodesList_cons, List.map_append, List.map_append, List.nodup_append,
    List.nodup_append] at h
  obtain ⟨-, ⟨h1, -, h2⟩, h3⟩ := h
  refine ⟨h1, fun g hg x hx y hy he => ?_⟩
  rcases hx with hx | hx
  · refine h3 y.uid (List.mem_map.2 ⟨y, List.mem_flatMap.2 ⟨x, hx, hy⟩, rfl⟩) g.uid ?_ he
    exact List.mem_append_left _ (List.mem_map.2 ⟨g, hg, rfl⟩)
  · exact h2 g.uid (List.mem_map.2 ⟨g, hg, rfl⟩) y.uid
      (List.mem_map.2 ⟨y, List.mem_flatMap.2 ⟨x, hx, hy⟩, rfl⟩) he.symm

mutual
theorem objects_below : ∀ {n m : Node}, Objects n → m ∈ n.nodes → Objects m
  | .mk k u h v p cs, m, ho, hm => by
    rw [nodes_mk] at hm
    rcases List.mem_cons.1 hm with rfl | hm
    · exact ho
    · exact objects_list (objects_children ho).2 hm
theorem objects_list : ∀ {cs : List Node} {m : Node}, ((nodesList cs).map Node.uid).Nodup →
    m ∈ nodesList cs → Objects m
  | [], m, _, hm => nomatch hm
  | c :: cs, m, ho, hm => by
    rw [nodesList_cons] at ho hm
    rw [List.map_append, List.nodup_append] at ho
    rcases List.mem_append.1 hm with hm | hm
    · exact objects_below ho.1 hm
    · exact objects_list ho.2.1 hm
end

/-- The other children are as they were. -/
def Untouched (uid : Nat) (x : Node) : Prop := ∀ y ∈ x.nodes, y.uid ≠ uid

theorem added_split {c m m' : Node} {uid k : Nat} (h : AddedTo c uid k m m') (hc : c.kind ≠ .mode)
    (ho : Objects m) {before after : List Node} {d : Node} (hm : m.children = before ++ d :: after)
    (hd : d.kind = .mode) :
    ∃ before' d' after', m'.children = before' ++ d' :: after' ∧
      (∀ x' ∈ before', x'.kind = .mode → ∃ x ∈ before, x.kind = .mode ∧ x.policies = x'.policies) ∧
      (AddedTo c uid k d d' ∨ (d' = d ∧ Untouched uid d)) := by
  cases h with
  | @here h h' v p front back =>
    simp only [Node.children] at hm ⊢
    have hun : Untouched uid d := by
      intro y hy
      refine (objects_children ho).1 y ?_
      simp only [Node.children]
      rw [hm]
      exact List.mem_flatMap.2 ⟨d, by simp, hy⟩
    rcases List.append_eq_append_iff.1 hm with ⟨l, h1, h2⟩ | ⟨l, h1, h2⟩
    · refine ⟨front ++ c :: l, d, after, by rw [h2]; simp, ?_, .inr ⟨rfl, hun⟩⟩
      intro x hx hk
      rcases List.mem_append.1 hx with hx | hx
      · exact ⟨x, by rw [h1]; exact List.mem_append_left _ hx, hk, rfl⟩
      · rcases List.mem_cons.1 hx with rfl | hx
        · exact absurd hk hc
        · exact ⟨x, by rw [h1]; exact List.mem_append_right _ hx, hk, rfl⟩
    · cases l with
      | nil =>
        simp only [List.nil_append] at h2
        simp only [List.append_nil] at h1
        subst h1
        refine ⟨front ++ [c], d, after, by rw [← h2]; simp, ?_, .inr ⟨rfl, hun⟩⟩
        intro x hx hk
        rcases List.mem_append.1 hx with hx | hx
        · exact ⟨x, hx, hk, rfl⟩
        · rw [List.mem_singleton.1 hx] at hk
          exact absurd hk hc
      | cons y l =>
        simp only [List.cons_append, List.cons.injEq] at h2
        obtain ⟨rfl, rfl⟩ := h2
        exact ⟨before, d, l ++ c :: back, by rw [h1]; simp, fun x hx hk => ⟨x, hx, hk, rfl⟩,
          .inr ⟨rfl, hun⟩⟩
  | @inside k u h h' v p front back e e' he =>
    simp only [Node.children] at hm ⊢
    obtain ⟨g, hg, hgu⟩ := added_node he
    have hobj := (objects_split (objects_children ho).2).2 g hg
    rw [hgu] at hobj
    obtain ⟨h3, h4, h5, -⟩ := added_kind he
    rcases List.append_eq_append_iff.1 hm with ⟨l, h1, h2⟩ | ⟨l, h1, h2⟩
    · cases l with
      | nil =>
        simp only [List.nil_append, List.cons.injEq] at h2
        obtain ⟨rfl, rfl⟩ := h2
        simp only [List.append_nil] at h1
        subst h1
        exact ⟨before, e', back, rfl, fun x hx hk => ⟨x, hx, hk, rfl⟩, .inl he⟩
      | cons y l =>
        simp only [List.cons_append, List.cons.injEq] at h2
        obtain ⟨rfl, h2⟩ := h2
        refine ⟨front ++ e' :: l, d, after, by rw [h2]; simp, ?_,
          .inr ⟨rfl, hobj d (.inr (by rw [h2]; simp))⟩⟩
        intro x hx hk
        rcases List.mem_append.1 hx with hx | hx
        · exact ⟨x, by rw [h1]; exact List.mem_append_left _ hx, hk, rfl⟩
        · rcases List.mem_cons.1 hx with rfl | hx
          · exact ⟨e, by rw [h1]; simp, h3, h5⟩
          · exact ⟨x, by rw [h1]; simp [hx], hk, rfl⟩
    · cases l with
      | nil =>
        simp only [List.nil_append, List.cons.injEq] at h2
        obtain ⟨rfl, rfl⟩ := h2
        simp only [List.append_nil] at h1
        subst h1
        exact ⟨front, e', after, rfl, fun x hx hk => ⟨x, hx, hk, rfl⟩, .inl he⟩
      | cons y l =>
        simp only [List.cons_append, List.cons.injEq] at h2
        obtain ⟨rfl, rfl⟩ := h2
        exact ⟨before, d, l ++ e' :: back, by rw [h1]; simp, fun x hx hk => ⟨x, hx, hk, rfl⟩,
          .inr ⟨rfl, hobj d (.inl (by rw [h1]; simp))⟩⟩

theorem added_modes {c m m' : Node} {uid k : Nat} (h : AddedTo c uid k m m') (hc : c.kind ≠ .mode) :
    ∀ x' ∈ m'.children, x'.kind = .mode →
      ∃ x ∈ m.children, x.kind = .mode ∧ x.policies = x'.policies := by
  cases h with
  | here =>
    intro x hx hk
    simp only [Node.children, List.mem_append, List.mem_cons] at hx ⊢
    rcases hx with hx | rfl | hx
    · exact ⟨x, .inl hx, hk, rfl⟩
    · exact absurd hk hc
    · exact ⟨x, .inr hx, hk, rfl⟩
  | @inside k u h h' v p front back e e' he =>
    obtain ⟨h3, h4, h5, -⟩ := added_kind he
    intro x hx hk
    simp only [Node.children, List.mem_append, List.mem_cons] at hx ⊢
    rcases hx with hx | rfl | hx
    · exact ⟨x, .inl hx, hk, rfl⟩
    · exact ⟨e, .inr (.inl rfl), h3, h5⟩
    · exact ⟨x, .inr (.inr hx), hk, rfl⟩

theorem path_untouched {cfg : Config} {m deep : Node} {names : List Token}
    (h : ModePath cfg m names deep) {uid : Nat} (hu : Untouched uid m) : deep.uid ≠ uid :=
  hu _ (path_mem h).1

theorem added_path {cfg : Config} {c m deep : Node} {uid k : Nat} {names : List Token}
    (hp : ModePath cfg m names deep) (hc : c.kind ≠ .mode) : ∀ {m' : Node},
    AddedTo c uid k m m' → Objects m → ∃ deep', ModePath cfg m' names deep' ∧
      (AddedTo c uid k deep deep' ∨ (deep' = deep ∧ deep.uid ≠ uid)) := by
  induction hp with
  | @here m t hm hl =>
    intro m' h _
    obtain ⟨h1, h2, h3, -⟩ := added_kind h
    exact ⟨m', .here (namedMode_policies h3 h2 hm) ((label_policies h3).1 hl), .inl h⟩
  | @down m d deep t u ts before after hm hl hch hd hbef hp ih =>
    intro m' h ho
    obtain ⟨h1, h2, h3, -⟩ := added_kind h
    obtain ⟨before', d', after', h4, h5, h6⟩ := added_split h hc ho hch hd
    have hb : ∀ x' ∈ before', x'.kind = .mode → NamedMode x' ∧ ¬ IsLabel cfg x' u := by
      intro x' hx' hk
      obtain ⟨x, hx, hxk, hxp⟩ := h5 x' hx' hk
      obtain ⟨h7, h8⟩ := hbef x hx hxk
      exact ⟨namedMode_policies hxp hk h7, fun h => h8 ((label_policies hxp).2 h)⟩
    rcases h6 with h6 | ⟨rfl, h6⟩
    · have hod : Objects d := by
        have := (objects_children ho).2
        rw [hch] at this
        exact (objects_split this).1
      obtain ⟨deep', h7, h8⟩ := ih h6 hod
      exact ⟨deep', .down (namedMode_policies h3 h2 hm) ((label_policies h3).1 hl) h4
        (added_kind h6).2.1 hb h7, h8⟩
    · exact ⟨deep, .down (namedMode_policies h3 h2 hm) ((label_policies h3).1 hl) h4 hd hb hp,
        .inr ⟨rfl, path_untouched hp h6⟩⟩

theorem added_noSubMode {cfg : Config} {c m m' : Node} {uid k : Nat} (h : AddedTo c uid k m m')
    (hc : c.kind ≠ .mode) {rest : List Token} (hn : NoSubMode cfg m rest) :
    NoSubMode cfg m' rest := by
  intro t ht x' hx' hk
  obtain ⟨x, hx, hxk, hxp⟩ := added_modes h hc x' hx' hk
  obtain ⟨h1, h2⟩ := hn t ht x hx hxk
  exact ⟨namedMode_policies hxp hk h1, fun h => h2 ((label_policies hxp).2 h)⟩

/-! ## What the mode does -/

theorem agrees_throw {uid k : Nat} {v : Value} {s s1 : St} (e : Exc) :
    SameRun uid k v s (.throw e, s1) (.throw e, s1) := .failed (by simp)

theorem agrees_same {uid k : Nat} {v : Value} {s s0 : St} (hs : s0.calls = s.calls)
    {o : Out (List Call)} (h : ∀ calls, o = .ok calls → ∀ x ∈ calls, x.node ≠ uid) :
    SameRun uid k v s (ended o s0) (ended o s0) := by
  cases o with
  | ok calls =>
    simp only [ended, hs]
    exact .called (.same (h calls rfl))
  | _ => exact .failed (by simp)

/-- An argument nobody knows is reported as that. -/
theorem lost_unknown (cfg : Config) (n : Node) (t : Token) :
    Lost (unknownArgument cfg n t : Out Unit) := by
  unfold unknownArgument
  cases hc : closest cfg n t with
  | ok found =>
    simp only [Out.ok_bind]
    split
    · exact ⟨by simp, fun e he => by cases he; exact .inl rfl⟩
    · exact ⟨by simp, fun e he => by cases he; exact .inr (.inl rfl)⟩
  | throw e => exact absurd hc (closest_ne_throw _ _ _ e)
  | _ => exact ⟨by simp, by simp⟩

theorem lost_unwanted {cfg : Config} {r : Result} (h : Unwanted r) (mode : Node) (s : St) :
    ∃ o, Lost o ∧ outcomeOf cfg mode r s = (o, s) := by
  rcases h with ⟨t, rfl⟩ | ⟨e, rfl, he⟩
  · exact ⟨_, lost_unknown cfg mode t, rfl⟩
  · exact ⟨.throw e, ⟨by simp, fun e' h => by cases h; exact .inr (.inr he)⟩, rfl⟩

theorem reading_nodes {cfg : Config} {mode : Node} {chosen chosen' : Choices}
    {sofar : List Leaf} {used : List Nat} {args : List Token} {r : Result}
    (h : Reading cfg mode chosen sofar used args r chosen') (hs : ∀ l ∈ sofar, l.node ∈ mode.nodes)
    (uses : List Leaf) (hr : r = .accepts uses) : ∀ l ∈ uses, l.node ∈ mode.nodes := by
  induction h with
  | done => cases hr; exact hs
  | @take chosen chosen' sofar uses' used t rest left a r hf hkk ha hcl hrd ih =>
    refine ih ?_ hr
    intro l hl
    rcases List.mem_append.1 hl with hl | hl
    · exact hs l hl
    · obtain ⟨sh, hd, hcl⟩ := hcl
      have ham : a ∈ arguments mode := by
        obtain ⟨before, after, h1, -⟩ := hf
        rw [h1]; simp
      cases hcl with
      | takes =>
        unfold Shape.uses at hl
        split at hl
        · simp only [List.mem_singleton] at hl
          subst hl
          exact arguments_nodes ham
        · obtain ⟨x, hx, rfl⟩ := List.mem_map.1 hl
          exact (List.mem_filter.1 hx).1
  | _ => cases hr

theorem mode_noResult {cfg : Config} {root m : Node}
    (hc : ∃ depth, compiles cfg depth defaultRules root = true) (hm : m ∈ root.nodes)
    (hk : m.kind = .mode) : m.hasNoResult = true := by
  obtain ⟨d, hd⟩ := hc
  obtain ⟨p, hp⟩ := mem_nodes.1 hm
  obtain ⟨h1, -⟩ := nodeAsserts_parts ((compiles_iff_parts hd).2.2 p m hp)
  simp only [classPolicies, hk, Bool.and_eq_true] at h1
  obtain ⟨q, hq, hqk⟩ := List.any_eq_true.1 h1.1
  refine List.any_eq_true.2 ⟨q, hq, ?_⟩
  cases q with
  | other tag =>
    simp only [Policy.kind] at hqk
    split at hqk <;> first | rfl | contradiction | simp at hqk
  | _ => first | rfl | simp [Policy.kind] at hqk

theorem mode_nameless {cfg : Config} {root m : Node}
    (hc : ∃ depth, compiles cfg depth defaultRules root = true) (hm : m ∈ root.nodes)
    (hk : m.kind = .mode) : m.nameRefs = [] := by
  refine Classical.byContradiction fun h => ?_
  have := compiles_named hc hm h
  simp [Runnable, hk] at this

theorem ended_called_mode {mode : Node} {o : Out (List Value)} {uid : Nat} (h : mode.uid ≠ uid) :
    ∀ calls, called mode o = .ok calls → ∀ x ∈ calls, x.node ≠ uid := by
  intro calls hcalls x hx
  cases o <;> simp [called] at hcalls
  subst hcalls
  rw [List.mem_singleton.1 hx]
  exact h

/-- The grown mode, with the uses of a reading. -/
theorem added_runs {cfg : Config} {root root' c mode mode' : Node} {uid k : Nat} {v : Value}
    (hc : ∃ depth, compiles cfg depth defaultRules root = true)
    (hc' : ∃ depth, compiles cfg depth defaultRules root' = true)
    (ho : Optional c v) (htype : ∀ x ∈ root.nodes, x.hash ≠ c.hash)
    (h : AddedTo c uid k mode mode') (hm : mode ∈ root.nodes) (hm' : mode' ∈ root'.nodes)
    (hobj : Objects mode) {chosen chosen' : Choices} {rest : List Token} {uses : List Leaf}
    (hr : Reading cfg mode chosen [] [] rest (.accepts uses) chosen') (s s0 : St)
    (hs : s0.calls = s.calls) :
    SameRun uid k v s (parseMode mode uses s0) (parseMode mode' uses s0) := by
  obtain ⟨hk, hk', -, -⟩ := added_kind h
  have huses := reading_uses hc hm hk hr (fun l hl => nomatch hl) uses rfl
  have hnodes := reading_nodes hr (fun l hl => nomatch hl) uses rfl
  have hhash : ∀ l ∈ uses, l.node.hash ≠ c.hash := fun l hl =>
    htype _ (nodes_trans _ _ hm _ (hnodes l hl))
  have hrout : ∀ l ∈ uses, l.node.hasRouter = false := by
    intro l hl
    rw [Bool.eq_false_iff, ne_eq, hasRouter_iff]
    exact (huses l hl).2
  rw [parseMode_modeOf mode uses s0 (fun l hl => (huses l hl).1) hrout,
    parseMode_modeOf mode' uses s0 (fun l hl => (huses l hl).1) hrout]
  cases h with
  | @here h h' vt p before after =>
    rw [modeOf_added ho hhash (h := h)]
    cases hmo : modeOf (.mk .mode uid h vt p (before ++ after)) uses with
    | ok vals =>
      simp only [Out.ok_bind, called, ended, hs]
      refine .called (calls := [⟨uid, vals⟩]) (calls' := [⟨uid, putIn (parameters before) v vals⟩]) ?_
      have hl : vals.length = parameters (before ++ after) := by
        unfold modeOf at hmo
        simp only [Out.bind_eq_ok] at hmo
        obtain ⟨rs, h2, vals', h3, us, h4, h5⟩ := hmo
        split at h5
        · cases h5
          rw [oneByOne_length h3]
          exact valuedFrom_length 0 _
        · cases h5
      have hle : parameters before ≤ vals.length := by
        rw [hl]
        unfold parameters
        rw [List.filter_append, List.length_append]
        omega
      have hsplit : vals = vals.take (parameters before) ++ vals.drop (parameters before) :=
        (List.take_append_drop _ _).symm
      have hw := SameCalls.widened (uid := uid) (k := parameters before) (v := v)
        (front := vals.take (parameters before)) (back := vals.drop (parameters before))
        (by rw [List.length_take]; omega)
      rw [← hsplit] at hw
      exact hw
    | throw e => exact agrees_throw e
    | _ => exact .failed (by simp)
  | @inside k u h h' vt p before after d d' hd =>
    obtain ⟨h1, h2, -, -⟩ := added_kind hd
    have hdn : d ∈ root.nodes := nodes_trans _ _ hm _
      (child_mem_nodes (by simp [Node.children]) _ (self_mem_nodes d))
    have hdn' : d' ∈ root'.nodes := nodes_trans _ _ hm' _
      (child_mem_nodes (by simp [Node.children]) _ (self_mem_nodes d'))
    rw [modeOf_inside (fun l hl => added_matchChild hd ho.single (hhash l hl))
      (mode_noResult hc hdn h1) (mode_noResult hc' hdn' h2) (h := h)]
    have hu : u ≠ uid := by
      obtain ⟨g, hg, hgu⟩ := added_node hd
      have := (objects_children hobj).1 g
        (List.mem_flatMap.2 ⟨d, by simp [Node.children], hg⟩)
      rw [hgu] at this
      exact fun he => this he.symm
    exact agrees_same hs (ended_called_mode (mode := .mk .mode u h vt p (before ++ d :: after)) hu)

/-! ## What a child of the root does -/

theorem path_begins {cfg : Config} {m deep : Node} {names : List Token}
    (h : ModePath cfg m names deep) : ∃ t ts, names = t :: ts ∧ NamedMode m ∧ IsLabel cfg m t := by
  cases h with
  | here hm hl => exact ⟨_, _, rfl, hm, hl⟩
  | down hm hl _ _ _ _ => exact ⟨_, _, rfl, hm, hl⟩

/-- The children of the two programs correspond: they are the same, or help nodes, or modes that are
related by `R`. -/
def Matched (R : Node → Node → Prop) (uid : Nat) (x x' : Node) : Prop :=
  (x = x' ∧ Untouched uid x) ∨ (x.kind = .help ∧ x'.kind = .help) ∨ R x x'

/-- What has to be known of modes that are related by `R` (because the mode `uid` is another one), for
programs with such modes to have runs that are related by `S`. -/
structure Carried (cfg : Config) (argv : List Bytes) (root root' : Node) (uid : Nat)
    (R : Node → Node → Prop) (S : St → Out Unit × St → Out Unit × St → Prop) : Prop where
  kind : ∀ {m m'}, R m m' → m.kind = .mode ∧ m'.kind = .mode ∧ m.policies = m'.policies
  node : ∀ {m m'}, R m m' → ∃ g ∈ m.nodes, g.uid = uid
  path : ∀ {m m' deep names}, R m m' → Objects m → ModePath cfg m names deep →
    ∃ deep', ModePath cfg m' names deep' ∧ (R deep deep' ∨ (deep' = deep ∧ deep.uid ≠ uid))
  noSubMode : ∀ {m m' rest}, R m m' → NoSubMode cfg m rest → NoSubMode cfg m' rest
  reading : ∀ {mode mode'}, R mode mode' → mode ∈ root.nodes → mode' ∈ root'.nodes →
    Objects mode → ∀ {s : St} {rest r chosen}, (∀ t ∈ rest, Arises cfg argv t) →
    Reading cfg mode s.sel [] [] rest r chosen →
    ∃ r', Reading cfg mode' s.sel [] [] rest r' chosen ∧
      S s (answerOutcome cfg (.reads mode r chosen) s) (answerOutcome cfg (.reads mode' r' chosen) s)
  same : ∀ {s s0 : St} {o : Out (List Call)}, s0.calls = s.calls →
    (∀ calls, o = .ok calls → ∀ x ∈ calls, x.node ≠ uid) → S s (ended o s0) (ended o s0)
  throws : ∀ {s s1 : St} (e : Exc), S s (.throw e, s1) (.throw e, s1)
  lost : ∀ {s s1 : St} {o o' : Out Unit}, Lost o → Lost o' → S s (o, s1) (o', s1)

section

variable {cfg : Config} {depth depth' : Nat} {root root' c : Node} {uid k : Nat} {v : Value}
  {argv : List Bytes}

theorem top_of_claims {x : Node} (hprog : OrdinaryProgram root) (hx : x ∈ root.children)
    {sofar : List Leaf} {mode : Node} {t : Token} {rest : List Token} {cl : Claim}
    (h : Claims cfg mode sofar x t rest cl) : TopArgument x := by
  obtain ⟨sh, hd, -⟩ := h
  rcases hprog x hx with h | h | h | ⟨hk, -⟩
  · exact h
  · exact absurd h.kind hd.leaf.1
  · exact absurd h.kind hd.leaf.1
  · exact absurd hk hd.leaf.1

theorem claims_root {x : Node} (hprog : OrdinaryProgram root) (hx : x ∈ root.children) {t : Token}
    {rest : List Token} {cl : Claim} (h : Claims cfg root [] x t rest cl) :
    Claims cfg root' [] x t rest cl := by
  have htop := top_of_claims hprog hx h
  obtain ⟨sh, hd, h⟩ := h
  obtain ⟨h1, h2⟩ := topArgument_shape htop hd
  exact ⟨sh, hd, claims_alone h1 h2 h⟩

theorem responds_same {x : Node} (hprog : OrdinaryProgram root) (hx : x ∈ root.children)
    {chosen : Choices} {args : List Token} {a : Answer} (h : Responds cfg root chosen x args a) :
    Responds cfg root' chosen x args a := by
  cases h with
  | argument h => exact .argument (claims_root hprog hx h)
  | leftover h hl => exact .leftover (claims_root hprog hx h) hl
  | refused h => exact .refused (claims_root hprog hx h)
  | path h1 h2 h3 => exact .path h1 h2 h3
  | anonymous h1 h2 h3 => exact .anonymous h1 h2 h3

theorem responds_help {x : Node} (hprog : OrdinaryProgram root) (hx : x ∈ root.children)
    (hk : x.kind = .help) (hask : ¬ AsksForHelp cfg root argv) {chosen : Choices} {a : Answer} :
    ¬ Responds cfg root chosen x (argv.map (Token.mk .none)) a := by
  have key : ∀ {t rest cl}, argv.map (Token.mk .none) = t :: rest →
      ¬ Claims cfg root [] x t rest cl := by
    intro t rest cl he h
    have hm := claims_mentions (top_of_claims hprog hx h).named h
    obtain ⟨y, hy, rfl⟩ := List.mem_map.1 (show t ∈ argv.map (Token.mk .none) by rw [he]; simp)
    exact hask ⟨x, hx, hk, y, hy, hm⟩
  intro h
  generalize he : argv.map (Token.mk .none) = args at h
  cases h with
  | argument h => exact key he h
  | leftover h _ => exact key he h
  | refused h => exact key he h
  | path h1 h2 h3 =>
    have := (path_mem h1).2.2
    rw [hk] at this; cases this
  | anonymous h1 h2 h3 => rw [hk] at h1; cases h1

/-- Where the answer of a child comes from. -/
theorem responds_from {x : Node} (hprog : OrdinaryProgram root) (hx : x ∈ root.children)
    {chosen : Choices} {args : List Token} {a : Answer} (h : Responds cfg root chosen x args a) :
    (∀ l, a = .uses l → l.node = x) ∧ ∀ m r ch, a = .reads m r ch → m ∈ x.nodes := by
  cases h with
  | @argument t rest l h =>
    refine ⟨fun l' hl' => ?_, fun _ _ _ h => nomatch h⟩
    cases hl'
    have htop := top_of_claims hprog hx h
    obtain ⟨sh, hd, h⟩ := h
    generalize hcl : Claim.takes [l] [] = cl at h
    cases h with
    | takes =>
      simp only [Claim.takes.injEq, Shape.uses, (topArgument_shape htop hd).1, List.cons.injEq,
        and_true] at hcl
      rw [hcl.1]
    | _ => cases hcl
  | leftover h => exact ⟨fun _ h => (nomatch h), fun _ _ _ h => nomatch h⟩
  | refused h => exact ⟨fun _ h => (nomatch h), fun _ _ _ h => nomatch h⟩
  | path h1 h2 h3 =>
    refine ⟨fun _ h => (nomatch h), fun m r ch h => ?_⟩
    cases h
    exact (path_mem h1).1
  | anonymous h1 h2 h3 =>
    refine ⟨fun _ h => (nomatch h), fun m r ch h => ?_⟩
    cases h
    exact self_mem_nodes _

theorem does_calls {a : Answer} {calls : List Call}
    (h : VerdictDoes cfg root (.answer a) (.ok calls)) : ∀ x ∈ calls,
      (∃ l, a = .uses l ∧ x.node = l.node.uid) ∨ ∃ m r ch, a = .reads m r ch ∧ x.node = m.uid := by
  generalize ho : Out.ok calls = o at h
  generalize hv : Spec.Verdict.answer a = w at h
  cases h with
  | @argument l o h =>
    cases hv
    intro x hx
    refine .inl ⟨l, rfl, ?_⟩
    cases h with
    | help => cases ho; rw [List.mem_singleton.1 hx]
    | helpFails _ _ hf => subst ho; cases hf
    | fails _ hf => subst ho; cases hf
    | calls => cases ho; rw [List.mem_singleton.1 hx]
    | silent => cases ho; cases hx
  | @mode m uses ch o h =>
    cases hv
    intro x hx
    refine .inr ⟨m, _, _, rfl, ?_⟩
    cases o <;> simp [called] at ho
    subst ho
    rw [List.mem_singleton.1 hx]
  | modeFails => cases ho
  | modeUnknown h =>
    subst ho
    cases h with
    | malformed _ _ _ _ h => exact absurd rfl (h _)
  | fails => cases ho
  | nothing => cases ho
  | unknown => cases hv

/-- A child that is in both programs. -/
theorem agrees_kept {R : Node → Node → Prop} {S : St → Out Unit × St → Out Unit × St → Prop}
    (hcar : Carried cfg argv root root' uid R S) {x : Node} (hc : compiles cfg depth defaultRules root = true)
    (hu : Conventional root) (hx : x ∈ root.children) (hun : Untouched uid x) {s : St}
    {args : List Token} {a : Answer} (hr : Responds cfg root s.sel x args a)
    (hv : ProgramReading cfg root s.sel args (.answer a)) :
    S s (answerOutcome cfg a s) (answerOutcome cfg a s) := by
  obtain ⟨o, h1, h2⟩ := (verdict_does hc hu hv).1
  simp only [verdictOutcome] at h2
  rw [h2]
  refine hcar.same (by rfl) fun calls hcalls y hy => ?_
  subst hcalls
  obtain ⟨h3, h4⟩ := responds_from (C92_ordinary_partial hc hu) hx hr
  rcases does_calls h1 y hy with ⟨l, h5, h6⟩ | ⟨m, r, ch, h5, h6⟩
  · rw [h6, h3 l h5]
    exact hun x (self_mem_nodes x)
  · rw [h6]
    exact hun m (h4 m r ch h5)

theorem added_apart {mode mode' : Node} (hc : ∃ depth, compiles cfg depth defaultRules root = true)
    (hc' : ∃ depth, compiles cfg depth defaultRules root' = true) (ho : Optional c v)
    (hun : Unrelated root c) (htypes : TypesHaveClasses root root')
    (hk : mode.kind = .mode) (hk' : mode'.kind = .mode) (hm : mode ∈ root.nodes)
    (hm' : mode' ∈ root'.nodes) : Apart c mode mode' where
  single := ho.single
  modes := by
    rintro x (hx | hx) hxk
    · exact mode_nameless hc (nodes_trans _ _ hm _ hx) hxk
    · exact mode_nameless hc' (nodes_trans _ _ hm' _ hx) hxk
  names := fun x hx => hun.names x (nodes_trans _ _ hm _ hx)
  types := by
    intro x hx hn
    have hxr := nodes_trans _ _ hm _ hx
    have key : ∀ y, y ∈ root.nodes ∨ y ∈ root'.nodes → y.kind = .mode → x.hash ≠ y.hash := by
      intro y hy hyk he
      have := htypes x (.inl hxr) y hy he
      rw [hyk] at this
      exact hn (mode_nameless hc hxr this)
    exact ⟨key _ (.inl hm) hk, key _ (.inr hm') hk'⟩

/-- A mode with a new argument reads a command line as before and does what it did. -/
theorem agrees_reading {mode mode' : Node}
    (hc : ∃ depth, compiles cfg depth defaultRules root = true)
    (hc' : ∃ depth, compiles cfg depth defaultRules root' = true) (ho : Optional c v)
    (hun : Unrelated root c)
    (hig : ∀ mode sofar t rest cl, Arises cfg argv t → ¬ Claims cfg mode sofar c t rest cl)
    (htypes : TypesHaveClasses root root')
    (h : AddedTo c uid k mode mode') (hm : mode ∈ root.nodes) (hm' : mode' ∈ root'.nodes)
    (hobj : Objects mode) {s : St} {rest : List Token} (hrest : ∀ t ∈ rest, Arises cfg argv t)
    {r : Result} {chosen : Choices} (hr : Reading cfg mode s.sel [] [] rest r chosen) :
    ∃ r', Reading cfg mode' s.sel [] [] rest r' chosen ∧
      SameRun uid k v s (answerOutcome cfg (.reads mode r chosen) s)
        (answerOutcome cfg (.reads mode' r' chosen) s) := by
  obtain ⟨hk, hk', -, -⟩ := added_kind h
  obtain ⟨move, hkeep⟩ := added_keeps (cfg := cfg) h ho
    (added_apart hc hc' ho hun htypes hk hk' hm hm')
  obtain ⟨r', h1, h2⟩ := keeps_reading hkeep (hig mode') hr hrest
  refine ⟨r', h1, ?_⟩
  simp only [answerOutcome]
  rcases h2 with rfl | ⟨h2, h3⟩
  · cases r' with
    | accepts uses => exact added_runs hc hc' ho hun.type h hm hm' hobj hr s _ rfl
    | fails e => exact agrees_throw e
    | unknown t => exact .lost (lost_unknown ..) (lost_unknown ..)
  · obtain ⟨o, h4, h5⟩ := lost_unwanted (cfg := cfg) h2 mode { s with sel := chosen }
    obtain ⟨o', h6, h7⟩ := lost_unwanted (cfg := cfg) h3 mode' { s with sel := chosen }
    rw [h5, h7]
    exact .lost h4 h6

theorem added_carried (hc : ∃ depth, compiles cfg depth defaultRules root = true)
    (hc' : ∃ depth, compiles cfg depth defaultRules root' = true) (ho : Optional c v)
    (hun : Unrelated root c)
    (hig : ∀ mode sofar t rest cl, Arises cfg argv t → ¬ Claims cfg mode sofar c t rest cl)
    (htypes : TypesHaveClasses root root') :
    Carried cfg argv root root' uid (AddedTo c uid k) (SameRun uid k v) where
  kind := fun h => by obtain ⟨h1, h2, h3, -⟩ := added_kind h; exact ⟨h1, h2, h3⟩
  node := added_node
  path := fun h hobj hp => added_path hp ho.leaf.1 h hobj
  noSubMode := fun h hn => added_noSubMode h ho.leaf.1 hn
  reading := fun h hm hm' hobj _ _ _ _ hrest hr =>
    agrees_reading hc hc' ho hun hig htypes h hm hm' hobj hrest hr
  same := fun hs h => agrees_same hs h
  throws := agrees_throw
  lost := .lost

section

variable {R : Node → Node → Prop} {S : St → Out Unit × St → Out Unit × St → Prop}

theorem forth {x x' : Node} (hcar : Carried cfg argv root root' uid R S)
    (hc : compiles cfg depth defaultRules root = true) (hu : Conventional root)
    (hobj : Objects root) (hask : ¬ AsksForHelp cfg root argv) (hx : x ∈ root.children)
    (hx' : x' ∈ root'.children) (hmt : Matched R uid x x') {s : St} {a : Answer}
    (hr : Responds cfg root s.sel x (argv.map (Token.mk .none)) a)
    (hv : ProgramReading cfg root s.sel (argv.map (Token.mk .none)) (.answer a)) :
    ∃ a', Responds cfg root' s.sel x' (argv.map (Token.mk .none)) a' ∧
      S s (answerOutcome cfg a s) (answerOutcome cfg a' s) := by
  have hprog := C92_ordinary_partial hc hu
  have harises : ∀ t ∈ argv.map (Token.mk .none), Arises cfg argv t := by
    intro t ht
    obtain ⟨y, hy, rfl⟩ := List.mem_map.1 ht
    exact .typed hy
  rcases hmt with ⟨rfl, hunt⟩ | ⟨hk, -⟩ | hadd
  · exact ⟨a, responds_same hprog hx hr, agrees_kept hcar hc hu hx hunt hr hv⟩
  · exact absurd hr (responds_help hprog hx hk hask)
  · obtain ⟨hk, hk', hpol⟩ := hcar.kind hadd
    have hxn := child_mem_nodes hx _ (self_mem_nodes x)
    have hxn' := child_mem_nodes hx' _ (self_mem_nodes x')
    have hobjx : Objects x := by
      obtain ⟨b, e, he⟩ := List.append_of_mem hx
      have := (objects_children hobj).2
      rw [he] at this
      exact (objects_split this).1
    have hno : ∀ {t rest cl}, ¬ Claims cfg root [] x t rest cl := by
      rintro t rest cl ⟨sh, hd, -⟩
      exact hd.leaf.1 hk
    generalize hargs : argv.map (Token.mk .none) = args at hr harises ⊢
    cases hr with
    | argument h => exact absurd h hno
    | leftover h => exact absurd h hno
    | refused h => exact absurd h hno
    | @path names rest mode r chosen hp hns hrd =>
      obtain ⟨deep', h1, h2⟩ := hcar.path hadd hobjx hp
      have hmode := (path_mem hp).1
      have hmode' := (path_mem h1).1
      rcases h2 with h2 | ⟨rfl, hu2⟩
      · obtain ⟨r', h3, h4⟩ := hcar.reading h2 (nodes_trans _ _ hxn _ hmode)
          (nodes_trans _ _ hxn' _ hmode') (objects_below hobjx hmode)
          (fun t ht => harises t (List.mem_append_right _ ht)) hrd
        exact ⟨_, .path h1 (hcar.noSubMode h2 hns) h3, h4⟩
      · refine ⟨_, .path h1 hns hrd, ?_⟩
        obtain ⟨o, h3, h4⟩ := (verdict_does hc hu hv).1
        simp only [verdictOutcome] at h4
        rw [h4]
        refine hcar.same (by rfl) fun calls hcalls y hy => ?_
        subst hcalls
        rcases does_calls h3 y hy with ⟨l, h5, h6⟩ | ⟨m, r, ch, h5, h6⟩
        · cases h5
        · cases h5
          rw [h6]
          exact hu2
    | anonymous hk1 hanon hrd =>
      have hanon' : x'.isAnonymous = true := by
        unfold Node.isAnonymous Node.noneName at hanon ⊢
        rw [← hpol]; exact hanon
      obtain ⟨r', h3, h4⟩ := hcar.reading hadd hxn hxn' hobjx harises hrd
      exact ⟨_, .anonymous hk' hanon' h3, h4⟩

theorem back {x x' : Node} (hcar : Carried cfg argv root root' uid R S) (hprog : OrdinaryProgram root) (hprog' : OrdinaryProgram root')
    (hask : ¬ AsksForHelp cfg root' argv) (hx : x ∈ root.children)
    (hx' : x' ∈ root'.children) (hmt : Matched R uid x x')
    (htext : ∀ x ∈ argv, Readable cfg ⟨.none, x⟩)
    (hlen : (argv.map List.length).sum + argv.length < 2 ^ 63) {s : St} {a' : Answer}
    (hr : Responds cfg root' s.sel x' (argv.map (Token.mk .none)) a') :
    ∃ a, Responds cfg root s.sel x (argv.map (Token.mk .none)) a := by
  have hw : weight (argv.map (Token.mk .none)) < 2 ^ 63 := Nat.lt_of_le_of_lt (weight_raw argv) hlen
  have hread : ReadsWell cfg root (argv.map (Token.mk .none)) := by
    intro _ t ht
    obtain ⟨y, hy, rfl⟩ := List.mem_map.1 ht
    exact htext y hy
  rcases hmt with ⟨rfl, -⟩ | ⟨-, hk'⟩ | hadd
  · exact ⟨a', responds_same hprog' hx' hr⟩
  · exact absurd hr (responds_help hprog' hx' hk' hask)
  · obtain ⟨hk, hk', hpol⟩ := hcar.kind hadd
    have hxn : x ∈ root.nodes := child_mem_nodes hx _ (self_mem_nodes x)
    have hno : ∀ {t rest cl}, ¬ Claims cfg root' [] x' t rest cl := by
      rintro t rest cl ⟨sh, hd, -⟩
      exact hd.leaf.1 hk'
    generalize hargs : argv.map (Token.mk .none) = args at hr hw hread ⊢
    cases hr with
    | argument h => exact absurd h hno
    | leftover h => exact absurd h hno
    | refused h => exact absurd h hno
    | @path names rest mode r chosen hp hns hrd =>
      obtain ⟨t, ts, rfl, hnm', hl'⟩ := path_begins hp
      have hnm := namedMode_policies hpol.symm hk hnm'
      have htree : ModeTree x := by
        rcases hprog x hx with h | h | h | ⟨-, hanon, -⟩
        · exact absurd hk (topArgument_leaf h).1
        · obtain ⟨p, hp, hdp⟩ := h.disabled
          have hpm : p.matters = true := by
            cases p <;> simp [Policy.disables, Policy.matters] at hdp ⊢ <;> exact hdp
          have := hnm.matching.mem_iff.1 (List.mem_filter.2 ⟨hp, hpm⟩)
          cases this
        · exact h
        · rw [hnm.named] at hanon; cases hanon
      obtain ⟨names, rest', deep, h1, -, h2, h3⟩ :=
        path_exists x t (ts ++ rest) htree ((label_policies hpol).2 hl')
      rw [List.cons_append, h1] at hw hread ⊢
      obtain ⟨hd1, hd2, -⟩ := path_mem h2
      obtain ⟨-, hord, hrep⟩ := htree.modes deep hd1 hd2
      rw [weight_append] at hw
      obtain ⟨r, chosen', hr⟩ := reading_of (chosen := s.sel) hord hrep (rest := rest') (by omega)
        (readsWell_mode hread (nodes_trans root x hxn _ hd1)
          fun t ht => List.mem_append_right _ ht)
      exact ⟨_, .path h2 h3 hr⟩
    | anonymous hk1 hanon' hrd =>
      have hanon : x.isAnonymous = true := by
        unfold Node.isAnonymous Node.noneName at hanon' ⊢
        rw [hpol]; exact hanon'
      have hord : Ordinary x ∧ RepeatableNamed x := by
        rcases hprog x hx with h | h | h | ⟨-, -, h⟩
        · exact absurd hk (topArgument_leaf h).1
        · rw [h.named] at hanon; cases hanon
        · have := (h.modes x (self_mem_nodes x) hk).1.named
          rw [this] at hanon; cases hanon
        · exact h
      obtain ⟨r, chosen', hr⟩ := reading_of (cfg := cfg) (chosen := s.sel) hord.1 hord.2 hw
        (readsWell_mode hread hxn fun t ht => ht)
      exact ⟨_, .anonymous hk hanon hr⟩

end

end

/-! ## Programs -/

theorem matched_split {R : Node → Node → Prop} {before after l' : List Node} {x : Node}
    (h : Zip R (before ++ x :: after) l') : ∃ before' x' after', l' = before' ++ x' :: after' ∧
      Zip R before before' ∧ R x x' := by
  induction before generalizing l' with
  | nil =>
    cases h with
    | @cons _ y _ m h1 h2 => exact ⟨[], y, m, rfl, .nil, h1⟩
  | cons a before ih =>
    cases h with
    | @cons _ y _ m h1 h2 =>
      obtain ⟨before', x', after', rfl, h3, h4⟩ := ih h2
      exact ⟨y :: before', x', after', rfl, .cons h1 h3, h4⟩

theorem matched_old {R : Node → Node → Prop} {l l' : List Node} (h : Zip R l l') :
    ∀ x' ∈ l', ∃ x ∈ l, R x x' := by
  induction h with
  | nil => exact fun _ h => nomatch h
  | @cons a y l m h1 h2 ih =>
    intro x' hx'
    rcases List.mem_cons.1 hx' with rfl | hx'
    · exact ⟨a, by simp, h1⟩
    · obtain ⟨x, hx, hr⟩ := ih x' hx'
      exact ⟨x, List.mem_cons_of_mem _ hx, hr⟩

theorem matched_append {R : Node → Node → Prop} {a a' b b' : List Node} (h : Zip R a a')
    (h2 : Zip R b b') : Zip R (a ++ b) (a' ++ b') := by
  induction h with
  | nil => exact h2
  | cons h1 _ ih => exact .cons h1 ih

theorem matched_help {R : Node → Node → Prop} {uid : Nat} {l l' : List Node} (h : SameButHelp l l')
    (hu : ∀ x ∈ l, Untouched uid x) : Zip (Matched R uid) l l' := by
  induction h with
  | nil => exact .nil
  | same _ ih =>
    exact .cons (.inl ⟨rfl, hu _ (by simp)⟩) (ih fun x hx => hu x (List.mem_cons_of_mem _ hx))
  | help h1 h2 _ ih =>
    exact .cons (.inr (.inl ⟨h1, h2⟩)) (ih fun x hx => hu x (List.mem_cons_of_mem _ hx))

theorem one_matched {R : Node → Node → Prop} {root root' m m' : Node} {uid : Nat}
    {before before' after after' : List Node} (h1 : root.children = before ++ m :: after)
    (h2 : root'.children = before' ++ m' :: after') (h3 : SameButHelp before before')
    (h4 : SameButHelp after after') (h5 : R m m') (hnode : ∃ g ∈ m.nodes, g.uid = uid)
    (hobj : Objects root) : Zip (Matched R uid) root.children root'.children := by
  rw [h1, h2]
  have hn := (objects_children hobj).2
  rw [h1] at hn
  obtain ⟨g, hg, hgu⟩ := hnode
  have hun := (objects_split hn).2 g hg
  rw [hgu] at hun
  exact matched_append (matched_help h3 fun x hx => hun x (.inl hx))
    (.cons (.inr (.inr h5)) (matched_help h4 fun x hx => hun x (.inr hx)))

/-- Two programs with related modes. -/
theorem programs_agree {cfg : Config} {depth depth' : Nat} {root root' : Node} {uid : Nat}
    {argv : List Bytes} {R : Node → Node → Prop} {S : St → Out Unit × St → Out Unit × St → Prop}
    (hcar : Carried cfg argv root root' uid R S) (hc : compiles cfg depth defaultRules root = true)
    (hc' : compiles cfg depth' defaultRules root' = true) (hu : Conventional root)
    (hu' : Conventional root') (hz : Zip (Matched R uid) root.children root'.children)
    (hobj : Objects root) (hask : ¬ AsksForHelp cfg root argv)
    (hask' : ¬ AsksForHelp cfg root' argv) (htext : ∀ x ∈ argv, Readable cfg ⟨.none, x⟩)
    (hlen : (argv.map List.length).sum + argv.length < 2 ^ 63) (s : St) :
    S s (parseArgs cfg root argv s) (parseArgs cfg root' argv s) := by
  have hprog := C92_ordinary_partial hc hu
  have hprog' := C92_ordinary_partial hc' hu'
  obtain ⟨w, h1, h2⟩ := C92_program_partial hc hu argv s htext hlen
  have hw := (h1 w).2 rfl
  obtain ⟨w', h1', h2'⟩ := C92_program_partial hc' hu' argv s htext hlen
  rw [h2, h2']
  have hsilent : ∀ (l l' : List Node), Zip (Matched R uid) l l' → (∀ x ∈ l, x ∈ root.children) →
      (∀ x ∈ l', x ∈ root'.children) →
      (∀ x ∈ l, ∀ a, ¬ Responds cfg root s.sel x (argv.map (Token.mk .none)) a) →
      ∀ x' ∈ l', ∀ a, ¬ Responds cfg root' s.sel x' (argv.map (Token.mk .none)) a := by
    intro l l' hl hin hin' hno x' hx' a ha
    obtain ⟨x, hx, hm⟩ := matched_old hl x' hx'
    obtain ⟨a0, h0⟩ := back hcar hprog hprog' hask' (hin x hx) (hin' x' hx') hm htext hlen ha
    exact hno x hx a0 h0
  cases hw with
  | @child before after x a hroot hb hr =>
    have hx : x ∈ root.children := by rw [hroot]; simp
    rw [hroot] at hz
    obtain ⟨before', x', after', hroot', hz2, hm⟩ := matched_split hz
    have hx' : x' ∈ root'.children := by rw [hroot']; simp
    simp only [verdictOutcome] at *
    obtain ⟨a', h3, h4⟩ := forth hcar hc hu hobj hask hx hx' hm hr
      (.child hroot hb hr)
    have hb' := hsilent before before' hz2 (fun y hy => by rw [hroot]; simp [hy])
      (fun y hy => by rw [hroot']; simp [hy]) hb
    rw [← (h1' _).1 (.child hroot' hb' h3)]
    exact h4
  | nothing hno hhd =>
    have hno' := hsilent _ _ hz (fun _ h => h) (fun _ h => h) hno
    rw [← (h1' _).1 (.nothing hno' hhd)]
    exact hcar.throws _
  | unknown hno hhd hne =>
    have hno' := hsilent _ _ hz (fun _ h => h) (fun _ h => h) hno
    rw [← (h1' _).1 (.unknown hno' hhd hne)]
    exact hcar.lost (lost_unknown ..) (lost_unknown ..)

section

variable {cfg : Config} {depth depth' : Nat} {root root' c : Node} {uid k : Nat} {v : Value}
  {argv : List Bytes}

theorem unused_ignored (h : Unused cfg argv c) :
    ∀ mode sofar t rest cl, Arises cfg argv t → ¬ Claims cfg mode sofar c t rest cl :=
  fun _ _ _ _ _ ht hcl => h.unmentioned _ ht (claims_mentions h.named hcl)

theorem upgrade_agrees (hc : compiles cfg depth defaultRules root = true)
    (hc' : compiles cfg depth' defaultRules root' = true) (hu : Conventional root)
    (hu' : Conventional root') (h : Upgrade cfg argv c v uid k root root')
    (hig : ∀ mode sofar t rest cl, Arises cfg argv t → ¬ Claims cfg mode sofar c t rest cl)
    (htext : ∀ x ∈ argv, Readable cfg ⟨.none, x⟩)
    (hlen : (argv.map List.length).sum + argv.length < 2 ^ 63) (s : St) :
    SameRun uid k v s (parseArgs cfg root argv s) (parseArgs cfg root' argv s) := by
  obtain ⟨before, before', m, m', after, after', h1, h2, h3, h4, h5⟩ := h.grown
  exact programs_agree (added_carried ⟨_, hc⟩ ⟨_, hc'⟩ h.optional h.unrelated hig h.types) hc hc' hu
    hu' (one_matched h1 h2 h3 h4 h5 (added_node h5) h.objects) h.objects h.noHelp.1 h.noHelp.2 htext
    hlen s

/-- C110: a command line that was accepted before the argument was added is accepted as before, and
the same routers are called with the same values, where the router of the mode that got the argument
gets its default value as well. -/
theorem C110_accepted (hc : compiles cfg depth defaultRules root = true)
    (hc' : compiles cfg depth' defaultRules root' = true) (hu : Conventional root)
    (hu' : Conventional root') (h : Upgrade cfg argv c v uid k root root')
    (hq : Unused cfg argv c) (htext : ∀ x ∈ argv, Readable cfg ⟨.none, x⟩)
    (hlen : (argv.map List.length).sum + argv.length < 2 ^ 63) (s s1 : St)
    (hrun : parseArgs cfg root argv s = (.ok (), s1)) :
    ∃ calls calls', s1.calls = s.calls ++ calls ∧
      parseArgs cfg root' argv s = (.ok (), { s1 with calls := s.calls ++ calls' }) ∧
      SameCalls uid k v calls calls' := by
  have ha := upgrade_agrees hc hc' hu hu' h (unused_ignored hq) htext hlen s
  rw [hrun] at ha
  generalize ho' : parseArgs cfg root' argv s = o' at ha
  generalize ho : (Out.ok (), s1) = o at ha
  cases ha with
  | @called calls calls' sel hcalls =>
    simp only [Prod.mk.injEq, true_and] at ho
    subst ho
    exact ⟨calls, calls', rfl, rfl, hcalls⟩
  | failed hf => cases ho; exact absurd rfl hf
  | lost hl => cases ho; exact absurd rfl hl.1

/-- C110: a command line that was refused, but not because of something nobody wants, is refused
with the same error. -/
theorem C110_refused (hc : compiles cfg depth defaultRules root = true)
    (hc' : compiles cfg depth' defaultRules root' = true) (hu : Conventional root)
    (hu' : Conventional root') (h : Upgrade cfg argv c v uid k root root')
    (hq : Unused cfg argv c) (htext : ∀ x ∈ argv, Readable cfg ⟨.none, x⟩)
    (hlen : (argv.map List.length).sum + argv.length < 2 ^ 63) (s s1 : St) (o : Out Unit)
    (ho : o ≠ .ok ()) (hno : ¬ Lost o) (hrun : parseArgs cfg root argv s = (o, s1)) :
    parseArgs cfg root' argv s = (o, s1) := by
  have ha := upgrade_agrees hc hc' hu hu' h (unused_ignored hq) htext hlen s
  rw [hrun] at ha
  generalize parseArgs cfg root' argv s = o' at ha ⊢
  generalize he : (o, s1) = p at ha
  cases ha with
  | called => cases he; exact absurd rfl ho
  | failed hf => cases he; rfl
  | lost hl => cases he; exact absurd hl hno

/-- C110: a command line that was refused because of something nobody wants is still refused because
of something nobody wants (perhaps in other words: the new name may be suggested). -/
theorem C110_unwanted (hc : compiles cfg depth defaultRules root = true)
    (hc' : compiles cfg depth' defaultRules root' = true) (hu : Conventional root)
    (hu' : Conventional root') (h : Upgrade cfg argv c v uid k root root')
    (hq : Unused cfg argv c) (htext : ∀ x ∈ argv, Readable cfg ⟨.none, x⟩)
    (hlen : (argv.map List.length).sum + argv.length < 2 ^ 63) (s s1 : St) (o : Out Unit)
    (ho : Lost o) (hrun : parseArgs cfg root argv s = (o, s1)) :
    ∃ o', Lost o' ∧ parseArgs cfg root' argv s = (o', s1) := by
  have ha := upgrade_agrees hc hc' hu hu' h (unused_ignored hq) htext hlen s
  rw [hrun] at ha
  generalize parseArgs cfg root' argv s = q at ha ⊢
  generalize he : (o, s1) = p at ha
  cases ha with
  | called => cases he; exact absurd rfl ho.1
  | failed hf => cases he; exact ⟨o, ho, rfl⟩
  | lost hl hl' => cases he; exact ⟨_, hl', rfl⟩

/-- C110: the grown program accepts exactly the command lines that were accepted before, of those
that do not mention the new argument. -/
theorem C110_same_lines (hc : compiles cfg depth defaultRules root = true)
    (hc' : compiles cfg depth' defaultRules root' = true) (hu : Conventional root)
    (hu' : Conventional root') (h : Upgrade cfg argv c v uid k root root')
    (hq : Unused cfg argv c) (htext : ∀ x ∈ argv, Readable cfg ⟨.none, x⟩)
    (hlen : (argv.map List.length).sum + argv.length < 2 ^ 63) (s : St) :
    (parseArgs cfg root' argv s).1 = .ok () ↔ (parseArgs cfg root argv s).1 = .ok () := by
  have ha := upgrade_agrees hc hc' hu hu' h (unused_ignored hq) htext hlen s
  generalize parseArgs cfg root' argv s = o', parseArgs cfg root argv s = o at ha ⊢
  cases ha with
  | called => exact ⟨fun _ => rfl, fun _ => rfl⟩
  | failed hf => exact ⟨fun h => absurd h hf, fun h => absurd h hf⟩
  | lost hl hl' => exact ⟨fun h => absurd h hl'.1, fun h => absurd h hl.1⟩

end

/-! ## Arguments that are switched off -/

/-- C112: a program in which an optional argument is switched off does with every command line what
it would do without the argument, except that the router of its mode gets the default value. -/
theorem C112_absent {cfg : Config} {depth depth' : Nat} {root root' c : Node} {uid k : Nat}
    {v : Value} {argv : List Bytes} (hc : compiles cfg depth defaultRules root = true)
    (hc' : compiles cfg depth' defaultRules root' = true) (hu : Conventional root)
    (hu' : Conventional root') (h : Upgrade cfg argv c v uid k root root') (hoff : Disabled c)
    (htext : ∀ x ∈ argv, Readable cfg ⟨.none, x⟩)
    (hlen : (argv.map List.length).sum + argv.length < 2 ^ 63) (s : St) :
    SameRun uid k v s (parseArgs cfg root argv s) (parseArgs cfg root' argv s) :=
  upgrade_agrees hc hc' hu hu' h (fun _ _ _ _ _ _ => claims_disabled hoff) htext hlen s

/-! ## New children of the root -/

section

variable {cfg : Config} {root root' x : Node} {argv : List Bytes}

theorem extension_silent (hprog' : OrdinaryProgram root') (h : Extension cfg argv x root root')
    (hq : (∀ y ∈ argv.head?, ¬ Mentions cfg x ⟨.none, y⟩) ∨ Disabled x) {chosen : Choices}
    {a : Answer} : ¬ Responds cfg root' chosen x (argv.map (Token.mk .none)) a := by
  obtain ⟨_, _, _, _, -, hch, -, -⟩ := h.children
  have hx : x ∈ root'.children := by rw [hch]; simp
  have hhead : ∀ t ts, argv.map (Token.mk .none) = t :: ts → ¬ Mentions cfg x t ∨ Disabled x := by
    intro t ts he
    refine hq.imp_left fun hq => ?_
    cases argv with
    | nil => cases he
    | cons y ys =>
      simp only [List.map_cons, List.cons.injEq] at he
      rw [← he.1]
      exact hq y rfl
  have key : ∀ {t rest cl}, argv.map (Token.mk .none) = t :: rest →
      ¬ Claims cfg root' [] x t rest cl := by
    intro t rest cl he hcl
    rcases hhead _ _ he with hq | hq
    · exact hq (claims_mentions (top_of_claims hprog' hx hcl).named hcl)
    · exact claims_disabled hq hcl
  intro hr
  generalize he : argv.map (Token.mk .none) = args at hr
  cases hr with
  | argument h1 => exact key he h1
  | leftover h1 _ => exact key he h1
  | refused h1 => exact key he h1
  | path h1 h2 h3 =>
    obtain ⟨t, ts, rfl, hnm, hl⟩ := path_begins h1
    rcases hhead t _ he with hq | ⟨p, hp, hdp⟩
    · exact hq (.inl hl)
    · have hpm : p.matters = true := by
        cases p <;> simp [Policy.disables, Policy.matters] at hdp ⊢ <;> exact hdp
      have := hnm.matching.mem_iff.1 (List.mem_filter.2 ⟨hp, hpm⟩)
      cases this
  | anonymous h1 h2 h3 => rw [h.named h1] at h2; cases h2

theorem sameButHelp_append {a a' b b' : List Node} (h : SameButHelp a a') (h2 : SameButHelp b b') :
    SameButHelp (a ++ b) (a' ++ b') := by
  induction h with
  | nil => exact h2
  | same _ ih => exact .same ih
  | help h1 h3 _ ih => exact .help h1 h3 ih

theorem sameButHelp_split {before after l' : List Node} {y : Node}
    (h : SameButHelp (before ++ y :: after) l') : ∃ before' y' after', l' = before' ++ y' :: after' ∧
      SameButHelp before before' ∧ SameButHelp after after' ∧ (y' = y ∨ y.kind = .help) := by
  induction before generalizing l' with
  | nil =>
    cases h with
    | @same _ _ ds h => exact ⟨[], y, ds, rfl, .nil, h, .inl rfl⟩
    | @help _ d _ ds h1 h2 h => exact ⟨[], d, ds, rfl, .nil, h, .inr h1⟩
  | cons z before ih =>
    cases h with
    | @same _ _ ds h =>
      obtain ⟨before', y', after', rfl, h3, h4, h5⟩ := ih h
      exact ⟨z :: before', y', after', rfl, .same h3, h4, h5⟩
    | @help _ d _ ds h1 h2 h =>
      obtain ⟨before', y', after', rfl, h3, h4, h5⟩ := ih h
      exact ⟨d :: before', y', after', rfl, .help h1 h2 h3, h4, h5⟩

theorem sameButHelp_mem {l l' : List Node} (h : SameButHelp l l') :
    ∀ y' ∈ l', y' ∈ l ∨ y'.kind = .help := by
  induction h with
  | nil => exact fun _ h => nomatch h
  | @same c cs ds h ih =>
    intro y hy
    rcases List.mem_cons.1 hy with rfl | hy
    · exact .inl (by simp)
    · exact (ih y hy).imp_left (List.mem_cons_of_mem _)
  | help h1 h2 h ih =>
    intro y hy
    rcases List.mem_cons.1 hy with rfl | hy
    · exact .inr h2
    · exact (ih y hy).imp_left (List.mem_cons_of_mem _)

/-- The new child does not respond. -/
theorem beside {depth depth' : Nat} (hc : compiles cfg depth defaultRules root = true)
    (hc' : compiles cfg depth' defaultRules root' = true) (hu : Conventional root)
    (hu' : Conventional root') (h : Extension cfg argv x root root')
    (hq : (∀ y ∈ argv.head?, ¬ Mentions cfg x ⟨.none, y⟩) ∨ Disabled x)
    (htext : ∀ y ∈ argv, Readable cfg ⟨.none, y⟩)
    (hlen : (argv.map List.length).sum + argv.length < 2 ^ 63) (s : St) :
    parseArgs cfg root' argv s = parseArgs cfg root argv s ∨
    ∃ o o', Lost o ∧ Lost o' ∧ parseArgs cfg root argv s = (o, s) ∧
      parseArgs cfg root' argv s = (o', s) := by
  have hprog := C92_ordinary_partial hc hu
  have hprog' := C92_ordinary_partial hc' hu'
  obtain ⟨before, before', after, after', hroot, hroot', hbef, haft⟩ := h.children
  have hall := sameButHelp_append hbef haft
  rw [← hroot] at hall
  obtain ⟨w, h1, h2⟩ := C92_program_partial hc hu argv s htext hlen
  have hw := (h1 w).2 rfl
  obtain ⟨w', h1', h2'⟩ := C92_program_partial hc' hu' argv s htext hlen
  rw [h2, h2']
  -- the children of the new program that do not respond
  have hsilent : ∀ l l', SameButHelp l l' → (∀ y ∈ l', y ∈ root'.children) →
      (∀ y ∈ l, ∀ a, ¬ Responds cfg root s.sel y (argv.map (Token.mk .none)) a) →
      ∀ y ∈ l', ∀ a, ¬ Responds cfg root' s.sel y (argv.map (Token.mk .none)) a := by
    intro l l' hl hin hno y hy a ha
    rcases sameButHelp_mem hl y hy with hy2 | hk
    · exact hno y hy2 a (responds_same hprog' (hin y hy) ha)
    · exact responds_help hprog' (hin y hy) hk h.noHelp.2 ha
  have hin' : ∀ y, y ∈ before' ++ after' → y ∈ root'.children := by
    intro y hy
    rw [hroot']
    rcases List.mem_append.1 hy with hy | hy
    · exact List.mem_append_left _ hy
    · exact List.mem_append_right _ (List.mem_cons_of_mem _ hy)
  have hnone : (∀ d ∈ root.children, ∀ a,
        ¬ Responds cfg root s.sel d (argv.map (Token.mk .none)) a) →
      ∀ d ∈ root'.children, ∀ a, ¬ Responds cfg root' s.sel d (argv.map (Token.mk .none)) a := by
    intro hno d hd
    have hrest := hsilent _ _ hall hin' hno
    rw [hroot'] at hd
    rcases List.mem_append.1 hd with hd | hd
    · exact hrest d (List.mem_append_left _ hd)
    · rcases List.mem_cons.1 hd with rfl | hd
      · exact fun a => extension_silent hprog' h hq
      · exact hrest d (List.mem_append_right _ hd)
  cases hw with
  | @child b e y a hch hb hr =>
    left
    have hy : y ∈ root.children := by rw [hch]; simp
    have hyk : y.kind ≠ .help := fun hk => responds_help hprog hy hk h.noHelp.1 hr
    have hr' : Responds cfg root' s.sel y (argv.map (Token.mk .none)) a := responds_same hprog hy hr
    rw [← (h1' (.answer a)).1]
    · rfl
    · rw [hroot] at hch
      rcases List.append_eq_append_iff.1 hch with ⟨l, h3, h4⟩ | ⟨l, h3, h4⟩
      · -- it is behind the new child
        rw [h4] at haft
        obtain ⟨l', y', e', rfl, h5, h6, h7⟩ := sameButHelp_split haft
        obtain rfl : y' = y := h7.resolve_right hyk
        refine .child (before := before' ++ x :: l') (after := e') (c := y') (by rw [hroot']; simp) ?_
          hr'
        intro d hd a' ha'
        have hrest := hsilent b (before' ++ l') (by rw [h3]; exact sameButHelp_append hbef h5)
          (fun z hz => hin' z (by
            rcases List.mem_append.1 hz with hz | hz
            · exact List.mem_append_left _ hz
            · exact List.mem_append_right _ (List.mem_append_left _ hz))) hb
        rcases List.mem_append.1 hd with hd | hd
        · exact hrest d (List.mem_append_left _ hd) a' ha'
        · rcases List.mem_cons.1 hd with rfl | hd
          · exact extension_silent hprog' h hq ha'
          · exact hrest d (List.mem_append_right _ hd) a' ha'
      · cases l with
        | nil =>
          simp only [List.nil_append] at h4
          simp only [List.append_nil] at h3
          rw [← h4] at haft
          obtain ⟨l', y', e', rfl, h5, h6, h7⟩ := sameButHelp_split (before := []) haft
          cases h5
          obtain rfl : y' = y := h7.resolve_right hyk
          refine .child (before := before' ++ [x]) (after := e') (c := y')
            (by rw [hroot']; simp) ?_ hr'
          intro d hd a' ha'
          rcases List.mem_append.1 hd with hd | hd
          · exact hsilent b before' (h3 ▸ hbef)
              (fun z hz => hin' z (List.mem_append_left _ hz)) hb d hd a' ha'
          · rw [List.mem_singleton.1 hd] at ha'
            exact extension_silent hprog' h hq ha'
        | cons z l =>
          simp only [List.cons_append, List.cons.injEq] at h4
          obtain ⟨rfl, rfl⟩ := h4
          rw [h3] at hbef
          obtain ⟨b', y', e', rfl, h5, h6, h7⟩ := sameButHelp_split hbef
          obtain rfl : y' = y := h7.resolve_right hyk
          refine .child (before := b') (after := e' ++ x :: after') (c := y')
            (by rw [hroot']; simp) ?_ hr'
          exact hsilent b b' h5 (fun z hz => hin' z (by simp [hz])) hb
  | nothing hno hhd =>
    left
    rw [← (h1' _).1 (.nothing (hnone hno) hhd)]
    rfl
  | unknown hno hhd hne =>
    right
    rw [← (h1' _).1 (.unknown (hnone hno) hhd hne)]
    exact ⟨_, _, lost_unknown cfg root _, lost_unknown cfg root' _, rfl, rfl⟩

/-- C111: with a new argument or mode beside the others, a program does with every command line that
does not begin with its name what it did before, or both find something nobody wants in it. -/
theorem C111_beside {depth depth' : Nat} (hc : compiles cfg depth defaultRules root = true)
    (hc' : compiles cfg depth' defaultRules root' = true) (hu : Conventional root)
    (hu' : Conventional root') (h : Extension cfg argv x root root')
    (hq : ∀ y ∈ argv.head?, ¬ Mentions cfg x ⟨.none, y⟩)
    (htext : ∀ y ∈ argv, Readable cfg ⟨.none, y⟩)
    (hlen : (argv.map List.length).sum + argv.length < 2 ^ 63) (s : St) :
    parseArgs cfg root' argv s = parseArgs cfg root argv s ∨
    ∃ o o', Lost o ∧ Lost o' ∧ parseArgs cfg root argv s = (o, s) ∧
      parseArgs cfg root' argv s = (o', s) :=
  beside hc hc' hu hu' h (.inl hq) htext hlen s

/-- C112: an argument or mode directly below the root that is switched off is as good as absent. -/
theorem C112_beside {depth depth' : Nat} (hc : compiles cfg depth defaultRules root = true)
    (hc' : compiles cfg depth' defaultRules root' = true) (hu : Conventional root)
    (hu' : Conventional root') (h : Extension cfg argv x root root') (hoff : Disabled x)
    (htext : ∀ y ∈ argv, Readable cfg ⟨.none, y⟩)
    (hlen : (argv.map List.length).sum + argv.length < 2 ^ 63) (s : St) :
    parseArgs cfg root' argv s = parseArgs cfg root argv s ∨
    ∃ o o', Lost o ∧ Lost o' ∧ parseArgs cfg root argv s = (o, s) ∧
      parseArgs cfg root' argv s = (o', s) :=
  beside hc hc' hu hu' h (.inr hoff) htext hlen s

end

/-! ## Examples -/

/-- An argument with a long name only, and no separator, is mentioned by its label only. -/
theorem longOnly_unmentioned {cfg : Config} {c : Node} {argv : List Bytes} {n : Bytes}
    (hn : c.longName = some n) (hs : c.shortName = none) (hno : c.noneName = none)
    (hv : ∀ s, .valueSeparator s ∉ c.policies) (hargv : cfg.longPrefix ++ n ∉ argv) :
    ∀ t, Arises cfg argv t → ¬ Mentions cfg c t := by
  intro t ht hm
  rcases hm with hl | ⟨_, _, _, _, h, _⟩ | ⟨_, _, _, _, _, _, h⟩
  · cases ht with
    | @typed x hx =>
      simp only [IsLabel, Spelled, hn, hs, hno] at hl
      have : x = cfg.longPrefix ++ n := by simpa using hl
      exact hargv (this ▸ hx)
    | part =>
      simp only [IsLabel, hs] at hl
      cases hl
  · exact hv _ h
  · rw [hs] at h; cases h

def quietFlag : Node := mkFlag .default 48 48 [.longName (b "quiet")]
def quietMode : Node := mkMode 45 47 [.router] [toolFlag, toolVerbose, quietFlag, toolNum, toolOut]
def quietRoot : Node := mkRoot 46 49 [quietMode]

theorem quietFlag_policies : quietFlag.policies =
    [.defaultValue (.one (.bool false)), .minMaxCount 0 0, .longName (b "quiet")] := rfl

/-- The hypotheses of the C110 theorems are met: a flag is added to a program with four arguments, and
the command line is any that does not use it. -/
theorem quiet_unused {argv : List Bytes} (h : b "--quiet" ∉ argv) :
    Unused .default argv quietFlag where
  named := by decide
  unmentioned := longOnly_unmentioned (n := b "quiet") rfl rfl rfl
    (by rw [quietFlag_policies]; simp) h

theorem toolRoot_unlinked : ∀ x ∈ toolRoot.nodes, ∀ refs,
    ¬ (.alias refs ∈ x.policies ∨ .dependent refs ∈ x.policies) := by
  have hno : ∀ x ∈ toolRoot.nodes, x.policies.all fun
      | .alias _ => false | .dependent _ => false | _ => true := by decide
  intro x hx refs hr
  have := List.all_eq_true.1 (hno x hx)
  rcases hr with hr | hr
  · exact absurd (this _ hr) (by simp)
  · exact absurd (this _ hr) (by simp)

theorem quiet_upgrade (argv : List Bytes) :
    Upgrade .default argv quietFlag (.one (.bool false)) 45 2 toolRoot quietRoot where
  grown := ⟨[], [], toolMode, quietMode, [], [], rfl, rfl, .nil, .nil,
    .here (before := [toolFlag, toolVerbose]) (after := [toolNum, toolOut])⟩
  optional :=
    { leaf := ⟨by decide, by decide, by decide⟩
      single := rfl
      value := by decide
      fallback := by
        refine ⟨?_, by decide⟩
        unfold MustBeGiven
        rw [quietFlag_policies]
        simp
      fine := .fine fun p hp => by
        rw [quietFlag_policies] at hp
        simp only [List.mem_cons, List.not_mem_nil, or_false] at hp
        rcases hp with rfl | rfl | rfl <;> exact .indifferent (by simp) (by simp) }
  unrelated :=
    { type := by decide
      names := fun x hx refs hr => absurd hr (toolRoot_unlinked x hx refs) }
  types := by
    have hall : ∀ x ∈ toolRoot.nodes ++ quietRoot.nodes, ∀ y ∈ toolRoot.nodes ++ quietRoot.nodes,
        x.hash = y.hash → x.kind = y.kind := by decide
    intro x hx y hy
    exact hall x (List.mem_append.2 hx) y (List.mem_append.2 hy)
  objects := by decide
  noHelp := by
    constructor
    · rintro ⟨d, hd, hk, -⟩
      have : ∀ d ∈ toolRoot.children, d.kind ≠ .help := by decide
      exact this d hd hk
    · rintro ⟨d, hd, hk, -⟩
      have : ∀ d ∈ quietRoot.children, d.kind ≠ .help := by decide
      exact this d hd hk

/-- Both programs compile and keep to the conventions. -/
example : compiles .default 100 defaultRules toolRoot = true ∧ Conventional toolRoot ∧
    compiles .default 100 defaultRules quietRoot = true ∧ Conventional quietRoot :=
  ⟨by decide +kernel, conventional_of_test (by decide +kernel), by decide +kernel,
    conventional_of_test (by decide +kernel)⟩

/-- What the theorems are about: `--num 5` calls the router, which gets one value more; `--num 8` is
refused with the same error. -/
example :
    parseArgs .default toolRoot [b "--num", b "5"] .fresh =
      (.ok (), ⟨[], [⟨45, [.one (.bool false), .one (.int 0), .one (.int 5), .one (.int 9)]⟩]⟩) ∧
    parseArgs .default quietRoot [b "--num", b "5"] .fresh =
      (.ok (), ⟨[], [⟨45, [.one (.bool false), .one (.int 0), .one (.bool false), .one (.int 5),
        .one (.int 9)]⟩]⟩) ∧
    parseArgs .default quietRoot [b "--num", b "8"] .fresh =
      parseArgs .default toolRoot [b "--num", b "8"] .fresh := by
  decide +kernel

/-- Why errors about what nobody wants are apart: the grown program suggests the new name. -/
example :
    parseArgs .default toolRoot [b "--quit"] .fresh =
      (.throw ⟨.unknown_argument_with_suggestion, [⟨.none, b "--quit"⟩, ⟨.long, b "out"⟩]⟩, .fresh) ∧
    parseArgs .default quietRoot [b "--quit"] .fresh =
      (.throw ⟨.unknown_argument_with_suggestion, [⟨.none, b "--quit"⟩, ⟨.long, b "quiet"⟩]⟩,
        .fresh) := by
  decide +kernel

def namedTool : Node := mkMode 45 45 [.noneName (b "tool"), .router] [toolFlag, toolNum]
def otherMode : Node := mkMode 50 50 [.noneName (b "other"), .router] [toolFlag, toolOut]
def oneRoot : Node := mkRoot 46 46 [namedTool]
def twoRoot : Node := mkRoot 46 51 [otherMode, namedTool]

/-- The hypotheses of C111 are met: a mode is put before the one there is. -/
example : compiles .default 100 defaultRules oneRoot = true ∧ Conventional oneRoot ∧
    compiles .default 100 defaultRules twoRoot = true ∧ Conventional twoRoot :=
  ⟨by decide +kernel, conventional_of_test (by decide +kernel), by decide +kernel,
    conventional_of_test (by decide +kernel)⟩

theorem other_unmentioned {argv : List Bytes} (h : ∀ y ∈ argv.head?, y ≠ b "other") :
    ∀ y ∈ argv.head?, ¬ Mentions .default otherMode ⟨.none, y⟩ := by
  have hno : ∀ p ∈ otherMode.policies, (match p with
      | .valueSeparator _ | .shortFormExpander => false | _ => true) = true := by decide
  rintro y hy (hl | ⟨_, _, _, _, h2, _⟩ | ⟨_, _, _, h2, _⟩)
  · have h1 : otherMode.longName = none := by decide
    have h2 : otherMode.shortName = none := by decide
    have h3 : otherMode.noneName = some (b "other") := by decide
    simp only [IsLabel, Spelled, h1, h2, h3] at hl
    have : b "other" = y := by simpa using hl
    exact h y hy this.symm
  · exact absurd (hno _ h2) (by simp)
  · exact absurd (hno _ h2) (by simp)

theorem other_extension (argv : List Bytes) :
    Extension .default argv otherMode oneRoot twoRoot where
  children := ⟨[], [], [namedTool], [namedTool], rfl, rfl, .nil, .same .nil⟩
  named := fun _ => by decide
  noHelp := by
    constructor
    · rintro ⟨d, hd, hk, -⟩
      have : ∀ d ∈ oneRoot.children, d.kind ≠ .help := by decide
      exact this d hd hk
    · rintro ⟨d, hd, hk, -⟩
      have : ∀ d ∈ twoRoot.children, d.kind ≠ .help := by decide
      exact this d hd hk

/-- What C111 is about: both programs do the same with `tool --num 5`; neither wants `othr`, but they
say so in different words. -/
example :
    parseArgs .default oneRoot [b "tool", b "--num", b "5"] .fresh =
      (.ok (), ⟨[], [⟨45, [.one (.bool false), .one (.int 5)]⟩]⟩) ∧
    parseArgs .default twoRoot [b "tool", b "--num", b "5"] .fresh =
      parseArgs .default oneRoot [b "tool", b "--num", b "5"] .fresh ∧
    parseArgs .default oneRoot [b "othr"] .fresh ≠
      parseArgs .default twoRoot [b "othr"] .fresh := by
  decide +kernel

def hushFlag : Node := mkFlag .default 48 48 [.longName (b "hush"), .runtimeEnable false]
def hushMode : Node := mkMode 45 47 [.router] [toolFlag, toolVerbose, hushFlag, toolNum, toolOut]
def hushRoot : Node := mkRoot 46 49 [hushMode]

theorem hushFlag_policies : hushFlag.policies = [.defaultValue (.one (.bool false)),
    .minMaxCount 0 0, .longName (b "hush"), .runtimeEnable false] := rfl

/-- The hypotheses of C112 are met, for every command line. -/
example (argv : List Bytes) :
    Upgrade .default argv hushFlag (.one (.bool false)) 45 2 toolRoot hushRoot ∧
    Disabled hushFlag ∧ compiles .default 100 defaultRules hushRoot = true ∧
    Conventional hushRoot := by
  refine ⟨?_, ⟨.runtimeEnable false, by rw [hushFlag_policies]; simp, rfl⟩, by decide +kernel,
    conventional_of_test (by decide +kernel)⟩
  exact
    { grown := ⟨[], [], toolMode, hushMode, [], [], rfl, rfl, .nil, .nil,
        .here (before := [toolFlag, toolVerbose]) (after := [toolNum, toolOut])⟩
      optional :=
        { leaf := ⟨by decide, by decide, by decide⟩
          single := rfl
          value := by decide
          fallback := by
            refine ⟨?_, by decide⟩
            unfold MustBeGiven
            rw [hushFlag_policies]
            simp
          fine := .fine fun p hp => by
            rw [hushFlag_policies] at hp
            simp only [List.mem_cons, List.not_mem_nil, or_false] at hp
            rcases hp with rfl | rfl | rfl | rfl <;> exact .indifferent (by simp) (by simp) }
      unrelated := ⟨by decide, fun x hx refs hr => absurd hr (toolRoot_unlinked x hx refs)⟩
      types := by
        have hall : ∀ x ∈ toolRoot.nodes ++ hushRoot.nodes, ∀ y ∈ toolRoot.nodes ++ hushRoot.nodes,
            x.hash = y.hash → x.kind = y.kind := by decide
        intro x hx y hy
        exact hall x (List.mem_append.2 hx) y (List.mem_append.2 hy)
      objects := by decide
      noHelp := by
        refine ⟨(quiet_upgrade argv).noHelp.1, ?_⟩
        rintro ⟨d, hd, hk, -⟩
        have : ∀ d ∈ hushRoot.children, d.kind ≠ .help := by decide
        exact this d hd hk }

/-- What C112 is about: the flag is unknown, and so it is without it. -/
example :
    parseArgs .default hushRoot [b "--num", b "5"] .fresh =
      (.ok (), ⟨[], [⟨45, [.one (.bool false), .one (.int 0), .one (.bool false), .one (.int 5),
        .one (.int 9)]⟩]⟩) ∧
    parseArgs .default hushRoot [b "--num", b "5", b "--hush"] .fresh =
      parseArgs .default toolRoot [b "--num", b "5", b "--hush"] .fresh := by
  decide +kernel

/-- A command of its own that is switched off. -/
def hushCommand : Node :=
  mkFlag .default 64 64 [.longName (b "self-test"), .runtimeEnable false, .router]
def hushBeside : Node := mkRoot 46 51 [hushCommand, namedTool]

/-- The hypotheses of C112_beside are met, for every command line, and what it is about. -/
example : (∀ argv, Extension .default argv hushCommand oneRoot hushBeside) ∧
    Disabled hushCommand ∧ compiles .default 100 defaultRules hushBeside = true ∧
    Conventional hushBeside ∧
    parseArgs .default hushBeside [b "--self-test"] .fresh =
      parseArgs .default oneRoot [b "--self-test"] .fresh := by
  refine ⟨fun argv => ?_, ⟨.runtimeEnable false, ?_, rfl⟩, by decide +kernel,
    conventional_of_test (by decide +kernel), by decide +kernel⟩
  · refine ⟨⟨[], [], [namedTool], [namedTool], rfl, rfl, .nil, .same .nil⟩, (fun h => by cases h), ?_, ?_⟩
    · exact (other_extension argv).noHelp.1
    · rintro ⟨d, hd, hk, -⟩
      have : ∀ d ∈ hushBeside.children, d.kind ≠ .help := by decide
      exact this d hd hk
  · show _ ∈ [_, _, _, _, _]
    simp

end Props

end ArgRouter

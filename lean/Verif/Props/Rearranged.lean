import Verif.Props.Grown
import Verif.Lemmas.Rearranged

/-!
# The order in which modes and arguments are declared
-/

namespace ArgRouter

open Spec

namespace Props

section

variable {cfg : Config} {root root' : Node} {argv : List Bytes}

/-- A child that is not an anonymous mode responds only to a command line that begins with it. -/
theorem responds_begins {x : Node} (hprog : OrdinaryProgram root) (hx : x ∈ root.children)
    (hn : x.kind = .mode → x.isAnonymous = false) {chosen : Choices} {a : Answer}
    (h : Responds cfg root chosen x (argv.map (Token.mk .none)) a) :
    ∃ y ∈ argv.head?, Mentions cfg x ⟨.none, y⟩ := by
  have hhead : ∀ t ts, argv.map (Token.mk .none) = t :: ts → Mentions cfg x t →
      ∃ y ∈ argv.head?, Mentions cfg x ⟨.none, y⟩ := by
    intro t ts he hm
    cases argv with
    | nil => cases he
    | cons y ys =>
      simp only [List.map_cons, List.cons.injEq] at he
      exact ⟨y, rfl, he.1 ▸ hm⟩
  have key : ∀ {t rest cl}, argv.map (Token.mk .none) = t :: rest → Claims cfg root [] x t rest cl →
      ∃ y ∈ argv.head?, Mentions cfg x ⟨.none, y⟩ := fun he hcl =>
    hhead _ _ he (claims_mentions (top_of_claims hprog hx hcl).named hcl)
  generalize he : argv.map (Token.mk .none) = args at h
  cases h with
  | argument h1 => exact key he h1
  | leftover h1 _ => exact key he h1
  | refused h1 => exact key he h1
  | path h1 h2 h3 =>
    obtain ⟨t, ts, rfl, hnm, hl⟩ := path_begins h1
    exact hhead t _ he (.inl hl)
  | anonymous h1 h2 h3 => rw [hn h1] at h2; cases h2

theorem sameButHelp_old {l l' : List Node} (h : SameButHelp l l') :
    ∀ y ∈ l, y.kind ≠ .help → y ∈ l' := by
  induction h with
  | nil => intro _ h; cases h
  | same h ih =>
    intro y hy hk
    rcases List.mem_cons.1 hy with rfl | hy
    · simp
    · exact List.mem_cons_of_mem _ (ih y hy hk)
  | help h1 h2 h ih =>
    intro y hy hk
    rcases List.mem_cons.1 hy with rfl | hy
    · exact absurd h1 hk
    · exact List.mem_cons_of_mem _ (ih y hy hk)

/-- C113: a program whose modes and arguments directly below the root are declared in another order
does the same with every command line, or both find something nobody wants in it. -/
theorem C113_modes {depth depth' : Nat} (hc : compiles cfg depth defaultRules root = true)
    (hc' : compiles cfg depth' defaultRules root' = true) (hu : Conventional root)
    (hu' : Conventional root') (h : Rearranged cfg argv root root')
    (htext : ∀ y ∈ argv, Readable cfg ⟨.none, y⟩)
    (hlen : (argv.map List.length).sum + argv.length < 2 ^ 63) (s : St) :
    parseArgs cfg root' argv s = parseArgs cfg root argv s ∨
    ∃ o o', Lost o ∧ Lost o' ∧ parseArgs cfg root argv s = (o, s) ∧
      parseArgs cfg root' argv s = (o', s) := by
  have hprog := C92_ordinary_partial hc hu
  have hprog' := C92_ordinary_partial hc' hu'
  obtain ⟨l, hperm, hsame⟩ := h.children
  obtain ⟨w, h1, h2⟩ := C92_program_partial hc hu argv s htext hlen
  have hw := (h1 w).2 rfl
  obtain ⟨w', h1', h2'⟩ := C92_program_partial hc' hu' argv s htext hlen
  rw [h2, h2']
  -- a child of the new program that responds is one of the old program, and responds there
  have hold : ∀ y ∈ root'.children, ∀ a,
      Responds cfg root' s.sel y (argv.map (Token.mk .none)) a →
      y ∈ root.children ∧ Responds cfg root s.sel y (argv.map (Token.mk .none)) a := by
    intro y hy a ha
    rcases sameButHelp_mem hsame y hy with hy2 | hk
    · exact ⟨hperm.mem_iff.2 hy2, responds_same hprog' hy ha⟩
    · exact absurd ha (responds_help hprog' hy hk h.noHelp.2)
  have hnone : (∀ d ∈ root.children, ∀ a,
        ¬ Responds cfg root s.sel d (argv.map (Token.mk .none)) a) →
      ∀ d ∈ root'.children, ∀ a, ¬ Responds cfg root' s.sel d (argv.map (Token.mk .none)) a :=
    fun hno d hd a ha => hno d (hold d hd a ha).1 a (hold d hd a ha).2
  cases hw with
  | @child b e y a hch hb hr =>
    left
    have hy : y ∈ root.children := by rw [hch]; simp
    have hyk : y.kind ≠ .help := fun hk => responds_help hprog hy hk h.noHelp.1 hr
    have hr' : Responds cfg root' s.sel y (argv.map (Token.mk .none)) a := responds_same hprog hy hr
    have hy' : y ∈ root'.children := sameButHelp_old hsame y (hperm.mem_iff.1 hy) hyk
    obtain ⟨b', e', hch', hnot⟩ := List.eq_append_cons_of_mem hy'
    rw [← (h1' (.answer a)).1]
    · rfl
    refine .child hch' ?_ hr'
    intro d hd a' ha'
    have hd' : d ∈ root'.children := by rw [hch']; exact List.mem_append_left _ hd
    obtain ⟨hd0, ha0⟩ := hold d hd' a' ha'
    have hne : d ≠ y := fun he => hnot (he ▸ hd)
    -- an anonymous mode does not come before another child
    have hdn : d.kind = .mode → d.isAnonymous = false := by
      intro hk
      cases han : d.isAnonymous with
      | false => rfl
      | true =>
        obtain ⟨p, q, rfl⟩ := List.append_of_mem hd
        have := h.last.2 p d (q ++ y :: e') (by rw [hch']; simp) hk han
        simp at this
    by_cases hyn : y.kind = .mode → y.isAnonymous = false
    · obtain ⟨z, hz, hm⟩ := responds_begins hprog hy hyn hr
      obtain ⟨z', hz', hm'⟩ := responds_begins hprog hd0 hdn ha0
      obtain rfl : z = z' := by
        rw [Option.mem_def] at hz hz'; rw [hz] at hz'; exact Option.some.inj hz'
      exact hne (h.apart z d y hd0 hy hm' hm)
    · -- the anonymous mode was the last that was asked
      have hya : y.kind = .mode ∧ y.isAnonymous = true := by
        by_cases hk : y.kind = .mode
        · refine ⟨hk, ?_⟩
          cases han : y.isAnonymous with
          | true => rfl
          | false => exact absurd (fun _ => han) hyn
        · exact absurd (fun h => absurd h hk) hyn
      have he := h.last.1 b y e hch hya.1 hya.2
      rw [hch, he] at hd0
      rcases List.mem_append.1 hd0 with hd0 | hd0
      · exact hb d hd0 a' ha0
      · exact hne (List.mem_singleton.1 hd0)
  | nothing hno hhd =>
    left
    rw [← (h1' _).1 (.nothing (hnone hno) hhd)]
    rfl
  | unknown hno hhd hne =>
    right
    rw [← (h1' _).1 (.unknown (hnone hno) hhd hne)]
    exact ⟨_, _, lost_unknown cfg root _, lost_unknown cfg root' _, rfl, rfl⟩

end

/-! ## Which mode runs -/

/-- The other modes are the same, in the same order. -/
theorem modes_split {cs cs' before after : List Node} {m : Node}
    (h : cs'.filter (fun x => x.kind == .mode) = cs.filter fun x => x.kind == .mode)
    (hcs : cs = before ++ m :: after) (hm : m.kind = .mode) :
    ∃ before' after', cs' = before' ++ m :: after' ∧
      ∀ x ∈ before', x.kind = .mode → x ∈ before := by
  rw [hcs, List.filter_append, List.filter_cons_of_pos (by simp [hm])] at h
  obtain ⟨l1, l2, rfl, h1, h2⟩ := List.filter_eq_append_iff.1 h
  obtain ⟨l3, l4, rfl, h3, -, -⟩ := List.filter_eq_cons_iff.1 h2
  refine ⟨l1 ++ l3, l4, by simp, ?_⟩
  intro x hx hk
  rcases List.mem_append.1 hx with hx | hx
  · have : x ∈ l1.filter fun x => x.kind == .mode := List.mem_filter.2 ⟨hx, by simp [hk]⟩
    rw [h1] at this
    exact (List.mem_filter.1 this).1
  · exact absurd (by simp [hk]) (h3 x hx)

theorem swapped_split {c d m m' : Node} {uid k : Nat} (h : SwappedIn c d uid k m m')
    (hk : c.kind ≠ .mode ∧ d.kind ≠ .mode) (ho : Objects m) {before after : List Node} {e : Node}
    (hm : m.children = before ++ e :: after) (he : e.kind = .mode) :
    ∃ before' e' after', m'.children = before' ++ e' :: after' ∧
      (∀ x' ∈ before', x'.kind = .mode → ∃ x ∈ before, x.kind = .mode ∧ x.policies = x'.policies) ∧
      (SwappedIn c d uid k e e' ∨ (e' = e ∧ Untouched uid e)) := by
  cases h with
  | @here h h' v p front back =>
    have hun : Untouched uid e := by
      intro y hy
      refine (objects_children ho).1 y ?_
      rw [hm]
      exact List.mem_flatMap.2 ⟨e, by simp, hy⟩
    simp only [Node.children] at hm ⊢
    obtain ⟨before', after', h1, h2⟩ := modes_split (cs' := front ++ d :: c :: back) (by
      rw [List.filter_append, List.filter_append,
        List.filter_cons_of_neg (by simp [hk.2]), List.filter_cons_of_neg (by simp [hk.1]),
        List.filter_cons_of_neg (by simp [hk.1]), List.filter_cons_of_neg (by simp [hk.2])]) hm he
    exact ⟨before', e, after', h1, fun x hx hxk => ⟨x, h2 x hx hxk, hxk, rfl⟩, .inr ⟨rfl, hun⟩⟩
  | @inside k u h h' v p front back f f' hf =>
    simp only [Node.children] at hm ⊢
    obtain ⟨g, hg, hgu⟩ := swapped_node hf
    have hobj := (objects_split (objects_children ho).2).2 g hg
    rw [hgu] at hobj
    obtain ⟨h3, h4, h5⟩ := swapped_kind hf
    rcases List.append_eq_append_iff.1 hm with ⟨l, h1, h2⟩ | ⟨l, h1, h2⟩
    · cases l with
      | nil =>
        simp only [List.nil_append, List.cons.injEq] at h2
        obtain ⟨rfl, rfl⟩ := h2
        simp only [List.append_nil] at h1
        subst h1
        exact ⟨before, f', back, rfl, fun x hx hk => ⟨x, hx, hk, rfl⟩, .inl hf⟩
      | cons y l =>
        simp only [List.cons_append, List.cons.injEq] at h2
        obtain ⟨rfl, h2⟩ := h2
        refine ⟨front ++ f' :: l, e, after, by rw [h2]; simp, ?_,
          .inr ⟨rfl, hobj e (.inr (by rw [h2]; simp))⟩⟩
        intro x hx hk
        rcases List.mem_append.1 hx with hx | hx
        · exact ⟨x, by rw [h1]; exact List.mem_append_left _ hx, hk, rfl⟩
        · rcases List.mem_cons.1 hx with rfl | hx
          · exact ⟨f, by rw [h1]; simp, h3, h5⟩
          · exact ⟨x, by rw [h1]; simp [hx], hk, rfl⟩
    · cases l with
      | nil =>
        simp only [List.nil_append, List.cons.injEq] at h2
        obtain ⟨rfl, rfl⟩ := h2
        simp only [List.append_nil] at h1
        subst h1
        exact ⟨front, f', after, rfl, fun x hx hk => ⟨x, hx, hk, rfl⟩, .inl hf⟩
      | cons y l =>
        simp only [List.cons_append, List.cons.injEq] at h2
        obtain ⟨rfl, rfl⟩ := h2
        exact ⟨before, e, l ++ f' :: back, by rw [h1]; simp, fun x hx hk => ⟨x, hx, hk, rfl⟩,
          .inr ⟨rfl, hobj e (.inl (by rw [h1]; simp))⟩⟩

theorem swapped_modes {c d m m' : Node} {uid k : Nat} (h : SwappedIn c d uid k m m')
    (hk : c.kind ≠ .mode ∧ d.kind ≠ .mode) :
    ∀ x' ∈ m'.children, x'.kind = .mode →
      ∃ x ∈ m.children, x.kind = .mode ∧ x.policies = x'.policies := by
  cases h with
  | here =>
    intro x hx hxk
    simp only [Node.children, List.mem_append, List.mem_cons] at hx ⊢
    rcases hx with hx | rfl | rfl | hx
    · exact ⟨x, .inl hx, hxk, rfl⟩
    · exact absurd hxk hk.2
    · exact absurd hxk hk.1
    · exact ⟨x, .inr (.inr (.inr hx)), hxk, rfl⟩
  | @inside k u h h' v p front back e e' he =>
    obtain ⟨h3, h4, h5⟩ := swapped_kind he
    intro x hx hxk
    simp only [Node.children, List.mem_append, List.mem_cons] at hx ⊢
    rcases hx with hx | rfl | hx
    · exact ⟨x, .inl hx, hxk, rfl⟩
    · exact ⟨e, .inr (.inl rfl), h3, h5⟩
    · exact ⟨x, .inr (.inr hx), hxk, rfl⟩

theorem swapped_path {cfg : Config} {c d m deep : Node} {uid k : Nat} {names : List Token}
    (hp : ModePath cfg m names deep) (hk : c.kind ≠ .mode ∧ d.kind ≠ .mode) : ∀ {m' : Node},
    SwappedIn c d uid k m m' → Objects m → ∃ deep', ModePath cfg m' names deep' ∧
      (SwappedIn c d uid k deep deep' ∨ (deep' = deep ∧ deep.uid ≠ uid)) := by
  induction hp with
  | @here m t hm hl =>
    intro m' h _
    obtain ⟨h1, h2, h3⟩ := swapped_kind h
    exact ⟨m', .here (namedMode_policies h3 h2 hm) ((label_policies h3).1 hl), .inl h⟩
  | @down m e deep t u ts before after hm hl hch hd hbef hp ih =>
    intro m' h ho
    obtain ⟨h1, h2, h3⟩ := swapped_kind h
    obtain ⟨before', e', after', h4, h5, h6⟩ := swapped_split h hk ho hch hd
    have hb : ∀ x' ∈ before', x'.kind = .mode → NamedMode x' ∧ ¬ IsLabel cfg x' u := by
      intro x' hx' hxk'
      obtain ⟨x, hx, hxk, hxp⟩ := h5 x' hx' hxk'
      obtain ⟨h7, h8⟩ := hbef x hx hxk
      exact ⟨namedMode_policies hxp hxk' h7, fun h => h8 ((label_policies hxp).2 h)⟩
    rcases h6 with h6 | ⟨rfl, h6⟩
    · have hod : Objects e := by
        have := (objects_children ho).2
        rw [hch] at this
        exact (objects_split this).1
      obtain ⟨deep', h7, h8⟩ := ih h6 hod
      exact ⟨deep', .down (namedMode_policies h3 h2 hm) ((label_policies h3).1 hl) h4
        (swapped_kind h6).2.1 hb h7, h8⟩
    · exact ⟨deep, .down (namedMode_policies h3 h2 hm) ((label_policies h3).1 hl) h4 hd hb hp,
        .inr ⟨rfl, path_untouched hp h6⟩⟩

theorem swapped_noSubMode {cfg : Config} {c d m m' : Node} {uid k : Nat}
    (h : SwappedIn c d uid k m m') (hk : c.kind ≠ .mode ∧ d.kind ≠ .mode) {rest : List Token}
    (hn : NoSubMode cfg m rest) : NoSubMode cfg m' rest := by
  intro t ht x' hx' hxk'
  obtain ⟨x, hx, hxk, hxp⟩ := swapped_modes h hk x' hx' hxk'
  obtain ⟨h1, h2⟩ := hn t ht x hx hxk
  exact ⟨namedMode_policies hxp hxk' h1, fun h => h2 ((label_policies hxp).2 h)⟩

/-! ## What the mode does -/

section

variable {cfg : Config} {root root' c d : Node} {uid k : Nat} {argv : List Bytes}

theorem swapped_same {s s0 : St} (hs : s0.calls = s.calls)
    {o : Out (List Call)} (h : ∀ calls, o = .ok calls → ∀ x ∈ calls, x.node ≠ uid) :
    SwappedRun c d uid k s (ended o s0) (ended o s0) := by
  cases o with
  | ok calls =>
    simp only [ended, hs]
    exact .called (.same (h calls rfl))
  | _ => exact .failed (by simp)

/-- The mode, with the uses of a reading. -/
theorem swapped_runs {mode mode' : Node}
    (hc : ∃ depth, compiles cfg depth defaultRules root = true)
    (hc' : ∃ depth, compiles cfg depth defaultRules root' = true)
    (hi : Independent cfg argv root c d)
    (h : SwappedIn c d uid k mode mode') (hm : mode ∈ root.nodes) (hm' : mode' ∈ root'.nodes)
    (hobj : Objects mode) {chosen chosen' : Choices} {rest : List Token} {uses : List Leaf}
    (hr : Reading cfg mode chosen [] [] rest (.accepts uses) chosen') (s s0 : St)
    (hs : s0.calls = s.calls) :
    SwappedRun c d uid k s (parseMode mode uses s0) (parseMode mode' uses s0) := by
  obtain ⟨hk, hk', -⟩ := swapped_kind h
  have huses := reading_uses hc hm hk hr (fun l hl => nomatch hl) uses rfl
  have hrout : ∀ l ∈ uses, l.node.hasRouter = false := by
    intro l hl
    rw [Bool.eq_false_iff, ne_eq, hasRouter_iff]
    exact (huses l hl).2
  rw [parseMode_modeOf mode uses s0 (fun l hl => (huses l hl).1) hrout,
    parseMode_modeOf mode' uses s0 (fun l hl => (huses l hl).1) hrout]
  cases h with
  | @here h h' vt p before after =>
    have hfl := modeOf_swapped (uid := uid) (h := h) (h' := h') (vt := vt) (p := p)
      (before := before) (after := after) hi.values.1 hi.values.2 (ls := uses)
      fun l _ => matchChild_one hi.types l.node.hash
    generalize modeOf (.mk .mode uid h vt p (before ++ c :: d :: after)) uses = o at hfl ⊢
    generalize modeOf (.mk .mode uid h' vt p (before ++ d :: c :: after)) uses = o' at hfl ⊢
    cases hfl with
    | ok hl =>
      simp only [called, ended, hs]
      exact .called (.swapped hl)
    | same hf =>
      cases o with
      | ok vals => exact absurd rfl (hf vals)
      | _ => exact .failed (by simp)
    | both h1 h2 =>
      obtain ⟨u, h3, h4⟩ := h1
      obtain ⟨u', h5, h6⟩ := h2
      cases h4 <;> cases h6 <;> exact .both h3 h5
  | @inside k u h h' vt p before after e e' hd =>
    obtain ⟨h1, h2, -⟩ := swapped_kind hd
    have hdn : e ∈ root.nodes := nodes_trans _ _ hm _
      (child_mem_nodes (by simp [Node.children]) _ (self_mem_nodes e))
    have hdn' : e' ∈ root'.nodes := nodes_trans _ _ hm' _
      (child_mem_nodes (by simp [Node.children]) _ (self_mem_nodes e'))
    rw [modeOf_inside (fun l hl => swapped_matchChild hd hi.types _)
      (mode_noResult hc hdn h1) (mode_noResult hc' hdn' h2) (h := h)]
    have hu : u ≠ uid := by
      obtain ⟨g, hg, hgu⟩ := swapped_node hd
      have := (objects_children hobj).1 g
        (List.mem_flatMap.2 ⟨e, by simp [Node.children], hg⟩)
      rw [hgu] at this
      exact fun he => this he.symm
    exact swapped_same hs (ended_called_mode (mode := .mk .mode u h vt p (before ++ e :: after)) hu)

theorem swapped_uncrossed {mode mode' : Node}
    (hc : ∃ depth, compiles cfg depth defaultRules root = true)
    (hc' : ∃ depth, compiles cfg depth defaultRules root' = true)
    (hi : Independent cfg argv root c d) (htypes : TypesHaveClasses root root')
    (hk : mode.kind = .mode) (hk' : mode'.kind = .mode) (hm : mode ∈ root.nodes)
    (hm' : mode' ∈ root'.nodes) : Uncrossed c d mode mode' where
  modes := by
    rintro x (hx | hx) hxk
    · exact mode_nameless hc (nodes_trans _ _ hm _ hx) hxk
    · exact mode_nameless hc' (nodes_trans _ _ hm' _ hx) hxk
  names := by
    intro z hz refs hr
    have := hi.names z (nodes_trans _ _ hm _ hz) refs hr
    refine Classical.byContradiction fun hn => ?_
    rw [not_or] at hn
    exact hn.1 fun x hx h1 => hn.2 fun y hy h2 => this x hx y hy h1 h2
  types := by
    intro x hx hn
    have hxr := nodes_trans _ _ hm _ hx
    have key : ∀ y, y ∈ root.nodes ∨ y ∈ root'.nodes → y.kind = .mode → x.hash ≠ y.hash := by
      intro y hy hyk he
      have := htypes x (.inl hxr) y hy he
      rw [hyk] at this
      exact hn (mode_nameless hc hxr this)
    exact ⟨key _ (.inl hm) hk, key _ (.inr hm') hk'⟩

theorem swapped_carried (hc : ∃ depth, compiles cfg depth defaultRules root = true)
    (hc' : ∃ depth, compiles cfg depth defaultRules root' = true)
    (hi : Independent cfg argv root c d) (htypes : TypesHaveClasses root root') :
    Carried cfg argv root root' uid (SwappedIn c d uid k) (SwappedRun c d uid k) where
  kind := swapped_kind
  node := swapped_node
  path := fun h hobj hp => swapped_path hp hi.arguments h hobj
  noSubMode := fun h hn => swapped_noSubMode h hi.arguments hn
  reading := by
    intro mode mode' h hm hm' hobj s rest r chosen hrest hr
    obtain ⟨hk, hk', -⟩ := swapped_kind h
    obtain ⟨move, hfol⟩ := swapped_follows h hi (swapped_uncrossed hc hc' hi htypes hk hk' hm hm')
    obtain ⟨r', h1, h2⟩ := follows_reading hfol hr hrest
    refine ⟨r', h1, ?_⟩
    simp only [answerOutcome]
    rcases h2 with rfl | ⟨h2, h3⟩
    · cases r' with
      | accepts uses => exact swapped_runs hc hc' hi h hm hm' hobj hr s _ rfl
      | fails e => exact .failed (by simp [outcomeOf])
      | unknown t => exact .lost (lost_unknown ..) (lost_unknown ..)
    · obtain ⟨o, h4, h5⟩ := lost_unwanted (cfg := cfg) h2 mode { s with sel := chosen }
      obtain ⟨o', h6, h7⟩ := lost_unwanted (cfg := cfg) h3 mode' { s with sel := chosen }
      rw [h5, h7]
      exact .lost h4 h6
  same := fun hs h => swapped_same hs h
  throws := fun e => .failed (by simp)
  lost := .lost

/-- C113: a program with two arguments of a mode declared in the other order does the same with every
command line, and its router gets the two values in the other order; if both cause an error, each
program reports the one it comes to first. -/
theorem C113_arguments {depth depth' : Nat} (hc : compiles cfg depth defaultRules root = true)
    (hc' : compiles cfg depth' defaultRules root' = true) (hu : Conventional root)
    (hu' : Conventional root') (h : Swapped cfg argv c d uid k root root')
    (htext : ∀ y ∈ argv, Readable cfg ⟨.none, y⟩)
    (hlen : (argv.map List.length).sum + argv.length < 2 ^ 63) (s : St) :
    SwappedRun c d uid k s (parseArgs cfg root argv s) (parseArgs cfg root' argv s) := by
  obtain ⟨before, before', m, m', after, after', h1, h2, h3, h4, h5⟩ := h.swapped
  exact programs_agree (swapped_carried ⟨_, hc⟩ ⟨_, hc'⟩ h.independent h.types) hc hc' hu hu'
    (one_matched h1 h2 h3 h4 h5 (swapped_node h5) h.objects) h.objects h.noHelp.1 h.noHelp.2 htext
    hlen s

/-- C113: the program accepts the same command lines. -/
theorem C113_same_lines {depth depth' : Nat} (hc : compiles cfg depth defaultRules root = true)
    (hc' : compiles cfg depth' defaultRules root' = true) (hu : Conventional root)
    (hu' : Conventional root') (h : Swapped cfg argv c d uid k root root')
    (htext : ∀ y ∈ argv, Readable cfg ⟨.none, y⟩)
    (hlen : (argv.map List.length).sum + argv.length < 2 ^ 63) (s : St) :
    (parseArgs cfg root' argv s).1 = .ok () ↔ (parseArgs cfg root argv s).1 = .ok () := by
  have hcause : ∀ (e : Node) (o : Out Unit), CausedBy e o → o ≠ .ok () := by
    rintro e o (⟨-, rfl⟩ | ⟨_, -, h⟩)
    · simp
    · exact h
  have hrun := C113_arguments hc hc' hu hu' h htext hlen s
  generalize parseArgs cfg root argv s = x at hrun ⊢
  generalize parseArgs cfg root' argv s = y at hrun ⊢
  cases hrun with
  | called => simp
  | failed => simp
  | lost h1 h2 => simp [h1.1, h2.1]
  | both h1 h2 => simp [hcause _ _ h1, hcause _ _ h2]

end

/-! ## Examples -/

def turnedRoot : Node := mkRoot 46 52 [namedTool, otherMode]

theorem none_unmentioned {m : Node} {n : Bytes} (hl : m.longName = none) (hs : m.shortName = none)
    (hn : m.noneName = some n) (hno : ∀ p ∈ m.policies, (match p with
      | .valueSeparator _ | .shortFormExpander => false | _ => true) = true) {y : Bytes}
    (h : Mentions .default m ⟨.none, y⟩) : n = y := by
  rcases h with hl2 | ⟨_, _, _, _, h2, _⟩ | ⟨_, _, _, h2, _⟩
  · simp only [IsLabel, Spelled, hl, hs, hn] at hl2
    simpa using hl2
  · exact absurd (hno _ h2) (by simp)
  · exact absurd (hno _ h2) (by simp)

/-- The hypotheses of `C113_modes` are met: two modes in two orders, and any command line. -/
theorem turned_rearranged (argv : List Bytes) : Rearranged .default argv twoRoot turnedRoot where
  children := ⟨[namedTool, otherMode], .swap _ _ _, .same (.same .nil)⟩
  apart := by
    have key : ∀ y c, c ∈ twoRoot.children → Mentions .default c ⟨.none, y⟩ →
        (c = otherMode ∧ b "other" = y) ∨ (c = namedTool ∧ b "tool" = y) := by
      intro y c hc h
      have hc : c ∈ [otherMode, namedTool] := hc
      simp only [List.mem_cons, List.not_mem_nil, or_false] at hc
      rcases hc with rfl | rfl
      · exact .inl ⟨rfl, none_unmentioned (by decide) (by decide) (by decide) (by decide) h⟩
      · exact .inr ⟨rfl, none_unmentioned (by decide) (by decide) (by decide) (by decide) h⟩
    have hne : b "other" ≠ b "tool" := by decide
    intro y c d hc hd h1 h2
    rcases key y c hc h1 with ⟨rfl, h3⟩ | ⟨rfl, h3⟩ <;>
      rcases key y d hd h2 with ⟨rfl, h4⟩ | ⟨rfl, h4⟩
    · rfl
    · exact absurd (h3.trans h4.symm) hne
    · exact absurd (h4.trans h3.symm) hne
    · rfl
  last := by
    have key : ∀ m ∈ twoRoot.children ++ turnedRoot.children, m.isAnonymous = false := by decide
    constructor
    · intro before m after h _ ha
      rw [key m (by rw [h]; simp)] at ha
      cases ha
    · intro before m after h _ ha
      rw [key m (by rw [h]; simp)] at ha
      cases ha
  noHelp := by
    constructor
    · rintro ⟨d, hd, hk, -⟩
      have : ∀ d ∈ twoRoot.children, d.kind ≠ .help := by decide
      exact this d hd hk
    · rintro ⟨d, hd, hk, -⟩
      have : ∀ d ∈ turnedRoot.children, d.kind ≠ .help := by decide
      exact this d hd hk

example : compiles .default 100 defaultRules twoRoot = true ∧ Conventional twoRoot ∧
    compiles .default 100 defaultRules turnedRoot = true ∧ Conventional turnedRoot :=
  ⟨by decide +kernel, conventional_of_test (by decide +kernel), by decide +kernel,
    conventional_of_test (by decide +kernel)⟩

example :
    parseArgs .default turnedRoot [b "other", b "--out", b "5"] .fresh =
      (.ok (), ⟨[], [⟨50, [.one (.bool false), .one (.int 5)]⟩]⟩) ∧
    parseArgs .default turnedRoot [b "other", b "--out", b "5"] .fresh =
      parseArgs .default twoRoot [b "other", b "--out", b "5"] .fresh := by
  decide +kernel

def mirrorMode : Node := mkMode 45 47 [.router] [toolFlag, toolVerbose, toolOut, toolNum]
def mirrorRoot : Node := mkRoot 46 49 [mirrorMode]

theorem long_mentioned {m : Node} {n : Bytes} (hl : m.longName = some n) (hs : m.shortName = none)
    (hn : m.noneName = none) (hno : ∀ p ∈ m.policies, (match p with
      | .valueSeparator _ | .shortFormExpander => false | _ => true) = true) {t : Token}
    (h : Mentions .default m t) :
    t = ⟨.none, Config.default.longPrefix ++ n⟩ ∨ t = ⟨.long, n⟩ := by
  rcases h with hl2 | ⟨_, _, _, _, h2, _⟩ | ⟨_, _, _, h2, _⟩
  · obtain ⟨pre, name⟩ := t
    cases pre
    · simp only [IsLabel, hl] at hl2
      exact .inr (by rw [Option.some.inj hl2])
    · simp only [IsLabel, hs] at hl2
      cases hl2
    · simp only [IsLabel, Spelled, hl, hs, hn] at hl2
      have : name = Config.default.longPrefix ++ n := by simpa using hl2
      exact .inl (by rw [this])
  · exact absurd (hno _ h2) (by simp)
  · exact absurd (hno _ h2) (by simp)

/-- The hypotheses of the other C113 theorems are met: the last two arguments of a program in the
other order, and any command line. -/
theorem mirror_swapped (argv : List Bytes) :
    Swapped .default argv toolNum toolOut 45 2 toolRoot mirrorRoot where
  swapped := ⟨[], [], toolMode, mirrorMode, [], [], rfl, rfl, .nil, .nil,
    .here (before := [toolFlag, toolVerbose]) (after := [])⟩
  independent :=
    { arguments := by decide
      values := by decide
      named := by decide
      apart := by
        intro t _ x hx y hy h1 h2
        have hx : x ∈ [toolNum] := hx
        have hy : y ∈ [toolOut] := hy
        rw [List.mem_singleton] at hx hy
        subst hx hy
        have h3 := long_mentioned (n := b "num") (by decide) (by decide) (by decide) (by decide) h1
        have h4 := long_mentioned (n := b "out") (by decide) (by decide) (by decide) (by decide) h2
        rcases h3 with rfl | rfl <;> revert h4 <;> decide
      types := by decide
      names := fun z hz refs hr => absurd hr (toolRoot_unlinked z hz refs) }
  types := by
    have hall : ∀ x ∈ toolRoot.nodes ++ mirrorRoot.nodes, ∀ y ∈ toolRoot.nodes ++ mirrorRoot.nodes,
        x.hash = y.hash → x.kind = y.kind := by decide
    intro x hx y hy
    exact hall x (List.mem_append.2 hx) y (List.mem_append.2 hy)
  objects := by decide
  noHelp := by
    constructor
    · rintro ⟨d, hd, hk, -⟩
      have : ∀ d ∈ toolRoot.children, d.kind ≠ .help := by decide
      exact this d hd hk
    · rintro ⟨d, hd, hk, -⟩
      have : ∀ d ∈ mirrorRoot.children, d.kind ≠ .help := by decide
      exact this d hd hk

example : compiles .default 100 defaultRules toolRoot = true ∧ Conventional toolRoot ∧
    compiles .default 100 defaultRules mirrorRoot = true ∧ Conventional mirrorRoot :=
  ⟨by decide +kernel, conventional_of_test (by decide +kernel), by decide +kernel,
    conventional_of_test (by decide +kernel)⟩

/-- What the theorems are about: the router gets the two values in the other order, and a refused value
is refused in both. -/
example :
    parseArgs .default toolRoot [b "--num", b "5"] .fresh =
      (.ok (), ⟨[], [⟨45, [.one (.bool false), .one (.int 0), .one (.int 5), .one (.int 9)]⟩]⟩) ∧
    parseArgs .default mirrorRoot [b "--num", b "5"] .fresh =
      (.ok (), ⟨[], [⟨45, [.one (.bool false), .one (.int 0), .one (.int 9), .one (.int 5)]⟩]⟩) ∧
    parseArgs .default mirrorRoot [b "--num", b "8"] .fresh =
      parseArgs .default toolRoot [b "--num", b "8"] .fresh := by
  decide +kernel

def needA : Node := mkArg 43 43 digitType [.longName (b "aa"), .required]
def needB : Node := mkArg 44 44 digitType [.longName (b "bb"), .required]
def needRoot : Node := mkRoot 46 46 [mkMode 45 45 [.router] [needA, needB]]
def needTurned : Node := mkRoot 46 49 [mkMode 45 47 [.router] [needB, needA]]

/-- Why errors of both arguments are apart: if both are missing, each program names the first. -/
example :
    compiles .default 100 defaultRules needRoot = true ∧
    compiles .default 100 defaultRules needTurned = true ∧
    parseArgs .default needRoot [] .fresh =
      (.throw ⟨.missing_required_argument, [⟨.long, b "aa"⟩]⟩, .fresh) ∧
    parseArgs .default needTurned [] .fresh =
      (.throw ⟨.missing_required_argument, [⟨.long, b "bb"⟩]⟩, .fresh) := by
  decide +kernel

def twinA : Node := mkMode 45 45 [.noneName (b "tool"), .router] [toolFlag]
def twinB : Node := mkMode 50 50 [.noneName (b "tool"), .router] [toolOut]
def twinRoot : Node := mkRoot 46 46 [twinA, twinB]
def twinTurned : Node := mkRoot 46 52 [twinB, twinA]

/-- The order of modes is not always irrelevant: nothing stops two modes of one name, and the first of
them is the one that runs. -/
theorem C113_same_names :
    compiles .default 100 defaultRules twinRoot = true ∧
    compiles .default 100 defaultRules twinTurned = true ∧
    Conventional twinRoot ∧ Conventional twinTurned ∧
    twinRoot.children.Perm twinTurned.children ∧
    parseArgs .default twinRoot [b "tool"] .fresh =
      (.ok (), ⟨[], [⟨45, [.one (.bool false)]⟩]⟩) ∧
    parseArgs .default twinTurned [b "tool"] .fresh =
      (.ok (), ⟨[], [⟨50, [.one (.int 9)]⟩]⟩) :=
  ⟨by decide +kernel, by decide +kernel, conventional_of_test (by decide +kernel),
    conventional_of_test (by decide +kernel), .swap _ _ _, by decide +kernel, by decide +kernel⟩

end Props

end ArgRouter

import Verif.Props.Whole

/-!
# C76, C88: there is one reading

The specification of the readings is a relation. Here: it gives every command line exactly one
result.
-/

namespace ArgRouter

open Spec

namespace Props

theorem first_unique {α : Type} {P : α → Prop} {l : List α} {a1 a2 : α} {b1 b2 c1 c2 : List α}
    (h1 : l = b1 ++ a1 :: c1) (h2 : l = b2 ++ a2 :: c2) (n1 : ∀ x ∈ b1, ¬ P x)
    (n2 : ∀ x ∈ b2, ¬ P x) (p1 : P a1) (p2 : P a2) : a1 = a2 := by
  induction b1 generalizing l b2 with
  | nil =>
    cases b2 with
    | nil => rw [h1] at h2; exact (List.cons.inj h2).1
    | cons x b2 =>
      rw [h1] at h2
      have := (List.cons.inj h2).1
      exact absurd (this ▸ p1) (n2 x (by simp))
  | cons y b1 ih =>
    cases b2 with
    | nil =>
      rw [h1] at h2
      have := (List.cons.inj h2).1
      exact absurd (this ▸ p2) (n1 y (by simp))
    | cons x b2 =>
      rw [h1] at h2
      exact ih (l := b1 ++ a1 :: c1) rfl (List.cons.inj h2).2
        (fun z hz => n1 z (List.mem_cons_of_mem _ hz))
        fun z hz => n2 z (List.mem_cons_of_mem _ hz)

theorem answers_unique {f : M (Option (Target × List Token))} {c : Node} {cl cl' : Claim}
    (h : Answers f alwaysTrue c cl) (h' : Answers f alwaysTrue c cl') : cl = cl' := by
  have hg : ∀ m, guarded alwaysTrue c m = m := fun m => by
    simp only [guarded, alwaysTrue, M.pure_bind, if_true]
  cases cl with
  | refuses e =>
    cases cl' with
    | refuses e' =>
      simp only [Answers, hg] at h h'
      have := congrFun (h.symm.trans h') .fresh
      cases this
      rfl
    | takes uses left =>
      obtain ⟨tgt, -, h'⟩ := h'
      simp only [Answers, hg] at h h'
      have := congrFun (h.symm.trans h') .fresh
      cases this
  | takes uses left =>
    obtain ⟨tgt, ht, h⟩ := h
    cases cl' with
    | refuses e' =>
      simp only [Answers, hg] at h h'
      have := congrFun (h.symm.trans h') .fresh
      cases this
    | takes uses' left' =>
      obtain ⟨tgt', ht', h'⟩ := h'
      simp only [hg] at h h'
      have := congrFun (h.symm.trans h') .fresh
      simp only [M.pure_apply, Prod.mk.injEq, Out.ok.injEq, Option.some.injEq] at this
      obtain ⟨⟨rfl, rfl⟩, -⟩ := this
      rw [← ht, ← ht']

section
variable {cfg : Config} {mode : Node}

theorem claims_unique (ho : Ordinary mode) {a : Nat × Node} (ha : a ∈ arguments mode)
    {sofar : List Leaf} {t : Token} {rest : List Token} (hw : weight (t :: rest) < 2 ^ 63)
    (hr : Expanding mode → Readable cfg t) {cl cl' : Claim}
    (h : Claims cfg mode sofar a.2 t rest cl) (h' : Claims cfg mode sofar a.2 t rest cl') :
    cl = cl' := by
  obtain ⟨h1, -⟩ := argument_answers (cfg := cfg) (parents := []) ho ha (sofar := sofar) hw hr
    alwaysTrue
  exact answers_unique (h1 _ h) (h1 _ h')

theorem First.unique {sofar : List Leaf} {used : List Nat} {t : Token} {rest : List Token}
    {a a' : Nat × Node} (h : First cfg mode sofar used t rest a)
    (h' : First cfg mode sofar used t rest a') : a = a' := by
  obtain ⟨b, c, h1, h2, h3⟩ := h
  obtain ⟨b', c', h1', h2', h3'⟩ := h'
  exact first_unique h1 h1' h2 h2' h3 h3'

theorem First.mem {sofar : List Leaf} {used : List Nat} {t : Token} {rest : List Token}
    {a : Nat × Node} (h : First cfg mode sofar used t rest a) : a ∈ arguments mode := by
  obtain ⟨b, c, h1, -, -⟩ := h
  rw [h1]; simp

theorem First.not_none {sofar : List Leaf} {used : List Nat} {t : Token} {rest : List Token}
    {a : Nat × Node} (h : First cfg mode sofar used t rest a)
    (hn : ∀ a ∈ arguments mode, ¬ Wants cfg mode sofar used t rest a) : False := by
  have hm := First.mem h
  obtain ⟨b, c, h1, -, h3⟩ := h
  exact hn a hm h3

theorem reading_unique (ho : Ordinary mode) {chosen c1 : Choices} {sofar : List Leaf}
    {used : List Nat} {args : List Token} {r1 : Result}
    (h1 : Reading cfg mode chosen sofar used args r1 c1) :
    ∀ {r2 : Result} {c2 : Choices}, weight args < 2 ^ 63 →
      (Expanding mode → ∀ t ∈ args, Readable cfg t) →
      Reading cfg mode chosen sofar used args r2 c2 → r1 = r2 ∧ c1 = c2 := by
  induction h1 with
  | done => intro r2 c2 _ _ h2; cases h2; exact ⟨rfl, rfl⟩
  | @take chosen chosen' sofar uses used t rest left a r hf hk ha hc hr ih =>
    intro r2 c2 hw hread h2
    cases h2 with
    | take hf' hk' ha' hc' hr' =>
      obtain rfl := First.unique hf hf'
      cases claims_unique ho (First.mem hf) hw (fun h => hread h _ (by simp)) hc hc'
      obtain ⟨sh, hd, hcl⟩ := hc
      obtain ⟨h3, h4⟩ := takes_left hd hcl
      exact ih (by omega) (fun h => h4 (hread h)) hr'
    | clash hf' hk' => cases First.unique hf hf'; exact absurd hk' (hk _)
    | again hf' hk' ha' => cases First.unique hf hf'; exact absurd ha ha'
    | refused hf' hk' ha' hc' =>
      obtain rfl := First.unique hf hf'
      cases claims_unique ho (First.mem hf) hw (fun h => hread h _ (by simp)) hc hc'
    | unhandled hn _ => exact (First.not_none hf hn).elim
    | unknown hn _ => exact (First.not_none hf hn).elim
  | @clash chosen sofar used t rest a o hf hk =>
    intro r2 c2 hw hread h2
    cases h2 with
    | take hf' hk' ha' hc' hr' => cases First.unique hf hf'; exact absurd hk (hk' _)
    | clash hf' hk' =>
      cases First.unique hf hf'
      obtain ⟨h3, -⟩ := hk
      obtain ⟨h4, -⟩ := hk'
      cases h3.symm.trans h4
      exact ⟨rfl, rfl⟩
    | again hf' hk' ha' => cases First.unique hf hf'; exact absurd hk (hk' _)
    | refused hf' hk' ha' hc' => cases First.unique hf hf'; exact absurd hk (hk' _)
    | unhandled hn _ => exact (First.not_none hf hn).elim
    | unknown hn _ => exact (First.not_none hf hn).elim
  | @again chosen sofar used t rest a hf hk ha =>
    intro r2 c2 hw hread h2
    cases h2 with
    | take hf' hk' ha' hc' hr' => cases First.unique hf hf'; exact absurd ha' ha
    | clash hf' hk' => cases First.unique hf hf'; exact absurd hk' (hk _)
    | again hf' hk' ha' => cases First.unique hf hf'; exact ⟨rfl, rfl⟩
    | refused hf' hk' ha' hc' => cases First.unique hf hf'; exact absurd ha' ha
    | unhandled hn _ => exact (First.not_none hf hn).elim
    | unknown hn _ => exact (First.not_none hf hn).elim
  | @refused chosen sofar used t rest a e hf hk ha hc =>
    intro r2 c2 hw hread h2
    cases h2 with
    | take hf' hk' ha' hc' hr' =>
      obtain rfl := First.unique hf hf'
      cases claims_unique ho (First.mem hf) hw (fun h => hread h _ (by simp)) hc hc'
    | clash hf' hk' => cases First.unique hf hf'; exact absurd hk' (hk _)
    | again hf' hk' ha' => cases First.unique hf hf'; exact absurd ha ha'
    | refused hf' hk' ha' hc' =>
      obtain rfl := First.unique hf hf'
      cases claims_unique ho (First.mem hf) hw (fun h => hread h _ (by simp)) hc hc'
      exact ⟨rfl, rfl⟩
    | unhandled hn _ => exact (First.not_none hf hn).elim
    | unknown hn _ => exact (First.not_none hf hn).elim
  | @unhandled chosen sofar used t rest hn hu =>
    intro r2 c2 hw hread h2
    cases h2 with
    | take hf' hk' ha' hc' hr' => exact (First.not_none hf' hn).elim
    | clash hf' hk' => exact (First.not_none hf' hn).elim
    | again hf' hk' ha' => exact (First.not_none hf' hn).elim
    | refused hf' hk' ha' hc' => exact (First.not_none hf' hn).elim
    | unhandled _ _ => exact ⟨rfl, rfl⟩
    | unknown _ hu' =>
      obtain ⟨i, hi, hiu⟩ := hu'
      exact absurd (hu i hi) hiu
  | @unknown chosen sofar used t rest hn hu =>
    intro r2 c2 hw hread h2
    cases h2 with
    | take hf' hk' ha' hc' hr' => exact (First.not_none hf' hn).elim
    | clash hf' hk' => exact (First.not_none hf' hn).elim
    | again hf' hk' ha' => exact (First.not_none hf' hn).elim
    | refused hf' hk' ha' hc' => exact (First.not_none hf' hn).elim
    | unhandled _ hu' =>
      obtain ⟨i, hi, hiu⟩ := hu
      exact absurd (hu' i hi) hiu
    | unknown _ _ => exact ⟨rfl, rfl⟩

end

/-- C76: a command line has only one reading. -/
theorem C76_unique (cfg : Config) (mode : Node) (chosen c1 c2 : Choices) (args : List Token)
    (r1 r2 : Result) (ho : Ordinary mode) (htext : Expanding mode → ∀ t ∈ args, Readable cfg t)
    (hlen : (args.map fun t => t.name.length).sum + args.length < 2 ^ 63)
    (h1 : Reading cfg mode chosen [] [] args r1 c1)
    (h2 : Reading cfg mode chosen [] [] args r2 c2) : r1 = r2 ∧ c1 = c2 :=
  reading_unique ho h1 (Nat.lt_of_le_of_lt (weight_le args) hlen) htext h2

/-- The hypotheses can be met: the result of `C76_total` is the only one. -/
example : ∃ r chosen, ∀ r' chosen', Reading .default ordinaryMode [] [] []
    ([b "-f", b "--level=3", b "--depth", b "2", b "x", b "y"].map (Token.mk .none)) r' chosen' ↔
    r' = r ∧ chosen' = chosen := by
  have htext : ∀ t ∈ [b "-f", b "--level=3", b "--depth", b "2", b "x", b "y"].map (Token.mk .none),
      Readable .default t := by
    intro t ht
    obtain ⟨x, hx, rfl⟩ := List.mem_map.1 ht
    exact ordinary_text x hx
  obtain ⟨r, chosen, h⟩ := C76_total .default ordinaryMode [] _ ordinaryMode_ordinary
    ordinaryMode_repeatable (fun _ => htext) (by decide)
  refine ⟨r, chosen, fun r' chosen' => ⟨fun h' => ?_, ?_⟩⟩
  · exact C76_unique _ _ _ _ _ _ _ _ ordinaryMode_ordinary (fun _ => htext) (by decide) h' h
  · rintro ⟨rfl, rfl⟩
    exact h

/-! ## Programs -/

theorem path_head {cfg : Config} {m deep : Node} {names : List Token}
    (h : ModePath cfg m names deep) : ∃ t ts, names = t :: ts ∧ IsLabel cfg m t := by
  cases h with
  | here _ hl => exact ⟨_, _, rfl, hl⟩
  | down _ hl _ _ _ _ => exact ⟨_, _, rfl, hl⟩

/-- The names that lead to a mode are as many as possible, and the mode is determined. -/
theorem path_unique {cfg : Config} {m deep : Node} {names : List Token}
    (h : ModePath cfg m names deep) : ∀ {rest : List Token} {names' rest' : List Token}
    {deep' : Node}, NoSubMode cfg deep rest → ModePath cfg m names' deep' →
    NoSubMode cfg deep' rest' → names ++ rest = names' ++ rest' →
    names = names' ∧ rest = rest' ∧ deep = deep' := by
  induction h with
  | @here m t hm hl =>
    intro rest names' rest' deep' hn hp hn' he
    cases hp with
    | here _ _ => simp only [List.cons_append, List.nil_append, List.cons.injEq] at he
                  exact ⟨by rw [he.1], he.2, rfl⟩
    | @down _ c _ t' u ts before after hm' hl' hc hck hbef hp =>
      obtain ⟨u', us, hu, hlu⟩ := path_head hp
      cases hu
      simp only [List.cons_append, List.nil_append, List.cons.injEq] at he
      have := (hn u (by rw [he.2]; rfl) c (by rw [hc]; simp) hck).2
      exact absurd hlu this
  | @down m c deep t u ts before after hm hl hc hck hbef hp ih =>
    intro rest names' rest' deep' hn hp' hn' he
    obtain ⟨u', us, hu, hlu⟩ := path_head hp
    cases hu
    cases hp' with
    | here _ _ =>
      simp only [List.cons_append, List.nil_append, List.cons.injEq] at he
      have := (hn' u (by rw [← he.2]; rfl) c (by rw [hc]; simp) hck).2
      exact absurd hlu this
    | @down _ c' _ t' v ts' before' after' hm' hl' hc' hck' hbef' hp' =>
      simp only [List.cons_append, List.cons.injEq] at he
      obtain ⟨rfl, rfl, he⟩ := he
      obtain ⟨v', vs, hv, hlv⟩ := path_head hp'
      cases hv
      have hcc : c = c' := first_unique (P := fun d => d.kind = .mode ∧ IsLabel cfg d u) hc hc'
        (fun d hd h => (hbef d hd h.1).2 h.2) (fun d hd h => (hbef' d hd h.1).2 h.2)
        ⟨hck, hlu⟩ ⟨hck', hlv⟩
      subst hcc
      obtain ⟨h1, h2, h3⟩ := ih hn hp' hn' (by rw [List.cons_append, List.cons_append, he])
      exact ⟨by rw [h1], h2, h3⟩

theorem top_claims_unique {cfg : Config} {root c : Node} (h : TopArgument c) {t : Token}
    {rest : List Token} (hw : weight (t :: rest) < 2 ^ 63) {cl cl' : Claim}
    (h1 : Claims cfg root [] c t rest cl) (h2 : Claims cfg root [] c t rest cl') : cl = cl' := by
  have e1 := argument_claims h hw h1
  have e2 := argument_claims h hw h2
  cases cl with
  | refuses e =>
    cases cl' with
    | refuses e' =>
      simp only at e1 e2
      have := congrFun (e1.symm.trans e2) .fresh
      cases this
      rfl
    | takes uses left =>
      obtain ⟨vs, -, e2⟩ := e2
      have := congrFun (e1.symm.trans e2) .fresh
      cases this
  | takes uses left =>
    obtain ⟨vs, hu, e1⟩ := e1
    cases cl' with
    | refuses e' =>
      have := congrFun (e1.symm.trans e2) .fresh
      cases this
    | takes uses' left' =>
      obtain ⟨vs', hu', e2⟩ := e2
      have := congrFun (e1.symm.trans e2) .fresh
      simp only [M.pure_apply, Prod.mk.injEq, Out.ok.injEq, Option.some.injEq,
        Target.mk.injEq] at this
      obtain ⟨⟨⟨-, rfl, -⟩, rfl⟩, -⟩ := this
      rw [hu, hu']

theorem responds_unique {cfg : Config} {root : Node} {chosen : Choices}
    (hprog : OrdinaryProgram root) {c : Node} (hc : c ∈ root.children) {args : List Token}
    (hw : weight args < 2 ^ 63) (hread : ReadsWell cfg root args) {a a' : Answer}
    (h : Responds cfg root chosen c args a) (h' : Responds cfg root chosen c args a') : a = a' := by
  have hmem : c ∈ root.nodes := child_mem_nodes hc _ (self_mem_nodes c)
  by_cases hk : c.kind = .mode
  · have hclaim : ∀ {t rest cl}, ¬ Claims cfg root [] c t rest cl := by
      rintro t rest cl ⟨sh, hd, -⟩
      exact absurd hk hd.leaf.1
    have hpa : ∀ {names deep}, ModePath cfg c names deep → c.isAnonymous = false := by
      intro names deep h
      cases h with
      | here hm _ => exact hm.named
      | down hm _ _ _ _ _ => exact hm.named
    have hmode : ∀ deep ∈ c.nodes, deep.kind = .mode → (c.isAnonymous = false ∨ deep = c) →
        (∃ names, ModePath cfg c names deep) ∨ c.isAnonymous = true → Ordinary deep := by
      intro deep hd hdk hor hex
      rcases hprog c hc with h | h | h | ⟨-, hanon, ho, -⟩
      · exact absurd hk (topArgument_leaf h).1
      · rcases hex with ⟨names, hp⟩ | hx
        · have hnm : NamedMode c := by
            cases hp with
            | here hm _ => exact hm
            | down hm _ _ _ _ _ => exact hm
          obtain ⟨p, hp, hdp⟩ := h.disabled
          have hpm : p.matters = true := by
            cases p <;> simp [Policy.disables, Policy.matters] at hdp ⊢ <;> exact hdp
          have := hnm.matching.mem_iff.1 (List.mem_filter.2 ⟨hp, hpm⟩)
          cases this
        · rw [h.named] at hx; cases hx
      · exact (h.modes deep hd hdk).2.1
      · rcases hor with hx | hx
        · rw [hanon] at hx; cases hx
        · exact hx ▸ ho
    cases h with
    | argument hcl => exact (hclaim hcl).elim
    | leftover hcl _ => exact (hclaim hcl).elim
    | refused hcl => exact (hclaim hcl).elim
    | @path names rest mode r ch hp hn hr =>
      obtain ⟨hd1, hd2, -⟩ := path_mem hp
      have ho := hmode mode hd1 hd2 (.inl (hpa hp)) (.inl ⟨_, hp⟩)
      generalize hx : names ++ rest = args' at h' hw hread
      cases h' with
      | argument hcl => exact (hclaim hcl).elim
      | leftover hcl _ => exact (hclaim hcl).elim
      | refused hcl => exact (hclaim hcl).elim
      | @path names' rest' mode' r' ch' hp' hn' hr' =>
        obtain ⟨rfl, rfl, rfl⟩ := path_unique hp hn hp' hn' hx
        rw [weight_append] at hw
        obtain ⟨rfl, rfl⟩ := reading_unique ho hr (by omega)
          (readsWell_mode hread (nodes_trans root c hmem _ hd1)
            fun t ht => List.mem_append_right _ ht) hr'
        rfl
      | anonymous _ hanon _ => rw [hpa hp] at hanon; cases hanon
    | @anonymous _ r ch _ hanon hr =>
      have ho := hmode c (self_mem_nodes c) hk (.inr rfl) (.inr hanon)
      generalize hx : args = args' at h'
      cases h' with
      | argument hcl => exact (hclaim hcl).elim
      | leftover hcl _ => exact (hclaim hcl).elim
      | refused hcl => exact (hclaim hcl).elim
      | path hp _ _ => rw [hpa hp] at hanon; cases hanon
      | anonymous _ _ hr' =>
        subst hx
        obtain ⟨rfl, rfl⟩ := reading_unique ho hr hw (readsWell_mode hread hmem fun t ht => ht) hr'
        rfl
  · have htop : TopArgument c := by
      rcases hprog c hc with h | h | h | ⟨hk', -⟩
      · exact h
      · exact absurd h.kind hk
      · exact absurd h.kind hk
      · exact absurd hk' hk
    have hpath : ∀ {names deep}, ¬ ModePath cfg c names deep := fun h => hk (path_mem h).2.2
    cases h with
    | argument hcl =>
      generalize hx : _ :: _ = args' at h' hw hread
      cases h' with
      | argument hcl' => cases hx; cases top_claims_unique htop hw hcl hcl'; rfl
      | leftover hcl' hne =>
        cases hx
        cases top_claims_unique htop hw hcl hcl'
        exact absurd rfl hne
      | refused hcl' => cases hx; cases top_claims_unique htop hw hcl hcl'
      | path hp _ _ => exact (hpath hp).elim
      | anonymous hk' _ _ => exact absurd hk' hk
    | leftover hcl hne =>
      generalize hx : _ :: _ = args' at h' hw hread
      cases h' with
      | argument hcl' =>
        cases hx
        cases top_claims_unique htop hw hcl hcl'
        exact absurd rfl hne
      | leftover hcl' _ => cases hx; cases top_claims_unique htop hw hcl hcl'; rfl
      | refused hcl' => cases hx; cases top_claims_unique htop hw hcl hcl'
      | path hp _ _ => exact (hpath hp).elim
      | anonymous hk' _ _ => exact absurd hk' hk
    | refused hcl =>
      generalize hx : _ :: _ = args' at h' hw hread
      cases h' with
      | argument hcl' => cases hx; cases top_claims_unique htop hw hcl hcl'
      | leftover hcl' _ => cases hx; cases top_claims_unique htop hw hcl hcl'
      | refused hcl' => cases hx; cases top_claims_unique htop hw hcl hcl'; rfl
      | path hp _ _ => exact (hpath hp).elim
      | anonymous hk' _ _ => exact absurd hk' hk
    | path hp _ _ => exact (hpath hp).elim
    | anonymous hk' _ _ => exact absurd hk' hk

/-- C88: a command line has only one reading. -/
theorem C88_unique (cfg : Config) (root : Node) (chosen : Choices) (argv : List Bytes)
    (v1 v2 : Verdict) (hprog : OrdinaryProgram root)
    (htext : (∃ n ∈ root.nodes, Policy.shortFormExpander ∈ n.policies) →
      ∀ x ∈ argv, Readable cfg ⟨.none, x⟩)
    (hlen : (argv.map List.length).sum + argv.length < 2 ^ 63)
    (h1 : ProgramReading cfg root chosen (argv.map (Token.mk .none)) v1)
    (h2 : ProgramReading cfg root chosen (argv.map (Token.mk .none)) v2) : v1 = v2 := by
  have hw := Nat.lt_of_le_of_lt (weight_raw argv) hlen
  have hread : ReadsWell cfg root (argv.map (Token.mk .none)) := by
    intro he t ht
    obtain ⟨x, hx, rfl⟩ := List.mem_map.1 ht
    exact htext he x hx
  generalize argv.map (Token.mk .none) = args at *
  cases h1 with
  | @child before after c a hroot hb hr =>
    have hin : c ∈ root.children := by rw [hroot]; simp
    cases h2 with
    | @child before' after' c' a' hroot' hb' hr' =>
      obtain rfl := first_unique (P := fun d => ∃ a, Responds cfg root chosen d args a) hroot hroot'
        (fun d hd ⟨a, ha⟩ => hb d hd a ha) (fun d hd ⟨a, ha⟩ => hb' d hd a ha) ⟨_, hr⟩ ⟨_, hr'⟩
      rw [responds_unique hprog hin hw hread hr hr']
    | nothing hno _ => exact absurd hr (hno c hin a)
    | unknown hno _ _ => exact absurd hr (hno c hin a)
  | nothing hno hh =>
    cases h2 with
    | @child before' after' c' a' hroot' hb' hr' =>
      exact absurd hr' (hno c' (by rw [hroot']; simp) a')
    | nothing _ _ => rfl
    | unknown _ ht hne => exact absurd (hh _ ht) hne
  | unknown hno ht hne =>
    cases h2 with
    | @child before' after' c' a' hroot' hb' hr' =>
      exact absurd hr' (hno c' (by rw [hroot']; simp) a')
    | nothing _ hh => exact absurd (hh _ ht) hne
    | unknown _ ht' _ => cases ht.symm.trans ht'; rfl

end Props

end ArgRouter

import Verif.Spec.Sound
import Verif.Lemmas.ModeLoop
import Verif.Props.Terminate
import Verif.Props.Suggest

/-!
# No undefined behaviour and no foreign exceptions

Invariants behind C57.
-/

namespace ArgRouter

open Spec Utf8 Props

/-- Neither undefined behaviour nor a foreign exception, and a property of the result. -/
def Sound {α : Type} (P : α → Prop) (o : Out α) : Prop :=
  o ≠ .ub ∧ o ≠ .foreign ∧ ∀ a, o = .ok a → P a

namespace Sound

variable {α β : Type} {P Q : α → Prop}

theorem ok {a : α} (h : P a) : Sound P (.ok a) := ⟨by simp, by simp, fun _ e => by cases e; exact h⟩
theorem throw (e : Exc) : Sound P (.throw e) := ⟨by simp, by simp, fun _ h => by cases h⟩
theorem diverge : Sound P (.diverge) := ⟨by simp, by simp, fun _ h => by cases h⟩

theorem imp {o : Out α} (h : Sound P o) (hpq : ∀ a, P a → Q a) : Sound Q o :=
  ⟨h.1, h.2.1, fun a e => hpq a (h.2.2 a e)⟩

theorem bind {R : β → Prop} {o : Out α} {f : α → Out β} (h : Sound P o)
    (hf : ∀ a, P a → Sound R (f a)) : Sound R (o >>= f) := by
  obtain ⟨h1, h2, h3⟩ := h
  cases o with
  | ok a => exact hf a (h3 a rfl)
  | throw e => exact throw e
  | foreign => exact absurd rfl h2
  | ub => exact absurd rfl h1
  | diverge => exact diverge

end Sound

/-- The same for code with state. -/
def SoundM {α : Type} (P : α → Prop) (m : M α) : Prop := ∀ s, Sound P (m s).1

namespace SoundM

variable {α β : Type} {P Q : α → Prop}

theorem pure {a : α} (h : P a) : SoundM P (Pure.pure a : M α) := fun _ => Sound.ok h
theorem throw (e : Exc) : SoundM P (M.throw e : M α) := fun _ => Sound.throw e
theorem lift {o : Out α} (h : Sound P o) : SoundM P (M.lift o) := fun _ => h
theorem imp {m : M α} (h : SoundM P m) (hpq : ∀ a, P a → Q a) : SoundM Q m :=
  fun s => (h s).imp hpq

theorem bind {R : β → Prop} {m : M α} {f : α → M β} (h : SoundM P m)
    (hf : ∀ a, P a → SoundM R (f a)) : SoundM R (m >>= f) := by
  intro s
  rw [M.bind_apply]
  have hs := h s
  match hx : m s with
  | (.ok a, s1) => rw [hx] at hs; exact hf a (hs.2.2 a rfl) s1
  | (.throw e, s1) => exact Sound.throw e
  | (.foreign, s1) => rw [hx] at hs; exact absurd rfl hs.2.1
  | (.ub, s1) => rw [hx] at hs; exact absurd rfl hs.1
  | (.diverge, s1) => exact Sound.diverge

end SoundM

/-! ## Text -/

theorem text_nil : Text [] := ⟨[], by simp [Plain], rfl⟩

theorem text_graphemes {s : Bytes} (h : Text s) :
    ∃ gs, graphemes s = .ok gs ∧ (∀ g ∈ gs, Text g ∧ g ≠ []) := by
  obtain ⟨cs, hp, rfl⟩ := h
  obtain ⟨parts, h1, h2, h3⟩ := C41_partition_partial cs hp
  refine ⟨_, h1, ?_⟩
  intro g hg
  obtain ⟨p, hpm, rfl⟩ := List.mem_map.1 hg
  refine ⟨⟨p, ?_, rfl⟩, ?_⟩
  · intro c hc
    exact hp c (by rw [← h2]; exact List.mem_flatten.2 ⟨p, hpm, hc⟩)
  · have := h3 p hpm
    cases p with
    | nil => exact absurd rfl this
    | cons c cs => obtain ⟨x, r, e⟩ := enc_cons_ne_nil c (enc cs); rw [enc_cons, e]; simp

theorem text_ascii_cons {x : UInt8} {s : Bytes} (hx : x.toNat < 0x80) (h : Text (x :: s)) :
    Text s := by
  obtain ⟨cs, hp, e⟩ := h
  cases cs with
  | nil => simp at e
  | cons c cs =>
    rw [enc_cons] at e
    have hps := hp.cons.2
    rcases encChar_cases c with ⟨h1, e1⟩ | ⟨h1, h2, e1⟩ | ⟨h1, h2, e1⟩ | ⟨h1, h2, e1⟩
    · rw [e1] at e
      simp only [List.cons_append, List.nil_append, List.cons.injEq] at e
      exact ⟨cs, hps, e.2⟩
    all_goals
      rw [e1] at e
      simp only [List.cons_append, List.cons.injEq] at e
      have := e.1
      rw [this, toNat_ofNat (by omega)] at hx
      omega

theorem text_drop {p s : Bytes} (hp : ∀ x ∈ p, x.toNat < 0x80) (h : Text s)
    (hs : startsWith p s = true) : Text (s.drop p.length) := by
  have e : s = p ++ s.drop p.length := by
    unfold startsWith at hs
    have := eq_of_beq hs
    conv => lhs; rw [← List.take_append_drop p.length s, this]
  generalize s.drop p.length = r at e
  subst e
  clear hs
  induction p with
  | nil => exact h
  | cons x p ih =>
    exact ih (fun y hy => hp y (List.mem_cons_of_mem _ hy))
      (text_ascii_cons (hp x List.mem_cons_self) h)

theorem text_levenshtein {s t : Bytes} (hs : Text s) (ht : Text t) :
    ∃ d, levenshtein s t = .ok d := by
  obtain ⟨a, ha, -⟩ := text_graphemes hs
  obtain ⟨c, hc, -⟩ := text_graphemes ht
  obtain ⟨d, hd, -⟩ := C31_edit_distance s t a c ha hc
  exact ⟨d, hd⟩

/-! ## Tokens -/

/-- The token is not just the short prefix (if that matters, `E`). -/
def NotLone (E : Prop) (cfg : Config) (t : Token) : Prop :=
  E → (t.pre = .none → t.name ≠ cfg.shortPrefix) ∧ (t.pre = .short → t.name ≠ [])

/-- What is kept true of the arguments left. -/
def GoodArgs (E : Prop) (cfg : Config) (args : List Token) : Prop :=
  (∀ t ∈ args, Text t.name) ∧ ∀ t, args.getLast? = some t → NotLone E cfg t

theorem goodArgs_nil {E : Prop} {cfg : Config} : GoodArgs E cfg [] := ⟨by simp, by simp⟩

theorem GoodArgs.suffix {E : Prop} {cfg : Config} {l l' : List Token} (h : GoodArgs E cfg l) (hs : l' <:+ l) :
    GoodArgs E cfg l' := by
  refine ⟨fun t ht => h.1 t (hs.subset ht), fun t ht => h.2 t ?_⟩
  obtain ⟨x, rfl⟩ := hs
  rw [List.getLast?_append, ht]; rfl

theorem GoodArgs.append {E : Prop} {cfg : Config} {l l' : List Token} (h : GoodArgs E cfg l)
    (h1 : ∀ t ∈ l', Text t.name ∧ NotLone E cfg t) : GoodArgs E cfg (l' ++ l) := by
  refine ⟨fun t ht => ?_, fun t ht => ?_⟩
  · rcases List.mem_append.1 ht with ht | ht
    · exact (h1 t ht).1
    · exact h.1 t ht
  · rw [List.getLast?_append] at ht
    cases hl : l.getLast? with
    | none => rw [hl] at ht; exact (h1 t (List.mem_of_getLast? ht)).2
    | some x =>
      rw [hl] at ht
      exact Option.some.inj ht ▸ h.2 x hl

theorem getTokenTypeNode_text {cfg : Config} (hc : AsciiPrefixes cfg) {l sh : Bool} {s : Bytes}
    (h : Text s) : Text (getTokenTypeNode cfg l sh s).name ∧
      (s ≠ cfg.shortPrefix →
        (getTokenTypeNode cfg l sh s).pre = .short → (getTokenTypeNode cfg l sh s).name ≠ []) := by
  unfold getTokenTypeNode
  split
  · rename_i h1
    simp only [Bool.and_eq_true] at h1
    exact ⟨text_drop (fun x hx => hc x (List.mem_append_left _ hx)) h h1.2, by simp⟩
  · split
    · rename_i h1
      simp only [Bool.and_eq_true] at h1
      refine ⟨text_drop (fun x hx => hc x (List.mem_append_right _ hx)) h h1.2.1, fun hs _ he => ?_⟩
      have h2 := eq_of_beq h1.2.1
      rw [List.drop_eq_nil_iff] at he
      rw [List.take_of_length_le he] at h2
      exact hs h2
    · exact ⟨h, by simp⟩

theorem getTokenType_text {cfg : Config} (hc : AsciiPrefixes cfg) {s : Bytes} (h : Text s) :
    Text (getTokenType cfg s).name := by
  unfold getTokenType
  split
  · rename_i h1; exact text_drop (fun x hx => hc x (List.mem_append_left _ hx)) h h1
  · split
    · rename_i h1; exact text_drop (fun x hx => hc x (List.mem_append_right _ hx)) h h1
    · exact h

/-! ## Suggestions -/

theorem closest_sound {cfg : Config} (hc : AsciiPrefixes cfg) {n : Node}
    (hn : ∀ m ∈ n.nodes, SoundNode m) {t : Token} (ht : Text t.name) :
    Sound (fun _ => True) (closest cfg n t) := by
  unfold closest
  have hx : Text (if t.pre == .none then getTokenType cfg t.name else t).name := by
    split
    · exact getTokenType_text hc ht
    · exact ht
  simp only
  generalize (if t.pre == .none then getTokenType cfg t.name else t).name = x at hx
  have hcand : ∀ c ∈ candidates n, Text ((c.head?.map Token.name).getD []) := by
    intro c hcm
    obtain ⟨m, ps, t', ⟨hb, -, hname⟩, rfl⟩ := mem_candidates.1 hcm
    have hm : m ∈ n.nodes :=
      List.mem_map.2 ⟨(m, ps), (mem_walk [] n m ps).2 (.inr ⟨ps, hb, by simp⟩), rfl⟩
    have := (hn m hm).names t'.name
    simp only [List.head?_cons, Option.map_some, Option.getD_some]
    apply this
    unfold HasName at hname
    split at hname
    · exact .inl hname
    · exact .inr (.inl hname)
    · exact .inr (.inr hname)
  generalize candidates n = cs at hcand
  generalize ([] : List Token) = best
  generalize sizeMax = score
  induction cs generalizing best score with
  | nil => exact Sound.ok trivial
  | cons c cs ih =>
    rw [closestLoop]
    obtain ⟨d, hd⟩ := text_levenshtein hx (hcand c List.mem_cons_self)
    have ih := ih (fun c' hc' => hcand c' (List.mem_cons_of_mem _ hc'))
    rw [hd]
    simp only [Out.ok_bind]
    split
    · exact ih _ _
    · exact ih _ _

theorem unknownArgument_sound {α : Type} {P : α → Prop} {cfg : Config} (hc : AsciiPrefixes cfg)
    {n : Node} (hn : ∀ m ∈ n.nodes, SoundNode m) {t : Token} (ht : Text t.name) :
    Sound P (unknownArgument (α := α) cfg n t) := by
  unfold unknownArgument
  refine (closest_sound hc hn ht).bind fun found _ => ?_
  split <;> exact Sound.throw _

/-! ## The phases -/

theorem transfer_mem {a : Adapter} {it : AIter} :
    (∀ t ∈ (a.transfer it).processed, t ∈ a.processed ∨ t ∈ a.unprocessed) ∧
    (∀ t ∈ (a.transfer it).unprocessed, t ∈ a.unprocessed) := by
  unfold Adapter.transfer
  simp only
  split <;> split
  all_goals
    refine ⟨fun t ht => ?_, fun t ht => ?_⟩
    · first
        | exact .inl ht
        | (rcases List.mem_append.1 ht with h | h
           · exact .inl h
           · exact .inr (List.mem_of_mem_take h))
    · first
        | exact ht
        | exact List.mem_of_mem_drop ht

theorem transfer_suffix {a : Adapter} {it : AIter} :
    (a.transfer it).unprocessed <:+ a.unprocessed := by
  unfold Adapter.transfer
  simp only
  split <;> split
  all_goals first
    | exact List.suffix_refl _
    | exact List.drop_suffix _ _

theorem set_mem {a a' : Adapter} {it : AIter} {t : Token} (h : a.set it t = .ok a') :
    (∀ x ∈ a'.processed, x ∈ a.processed ∨ x ∈ a.unprocessed ∨ x = t) ∧
    a'.unprocessed <:+ a.unprocessed := by
  unfold Adapter.set at h
  simp only at h
  split at h
  · simp only [Out.ok.injEq] at h
    subst h
    refine ⟨fun x hx => ?_, transfer_suffix⟩
    rcases List.mem_or_eq_of_mem_set hx with h | h
    · rcases transfer_mem.1 x h with h | h
      · exact .inl h
      · exact .inr (.inl h)
    · exact .inr (.inr h)
  · cases h

theorem insert_mem {a a' : Adapter} {it it' : AIter} {t : Token}
    (h : a.insert it t = .ok (a', it')) : a'.unprocessed <:+ a.unprocessed := by
  unfold Adapter.insert at h
  dsimp only at h
  generalize (if (a.transfer (it.add (-1))).isEnd it = true then
    ((a.transfer (it.add (-1))).processed.length : Int) else it.i) = k at h
  by_cases hk : 0 ≤ k ∧ k ≤ ((a.transfer (it.add (-1))).processed.length : Int)
  · rw [if_pos hk] at h
    simp only [Out.ok.injEq, Prod.mk.injEq] at h
    obtain ⟨rfl, -⟩ := h
    exact transfer_suffix
  · rw [if_neg hk] at h; cases h

/-- What is kept true of the tokens while the phases of a node run. -/
def GoodAdapter (E : Prop) (cfg : Config) (n : Node) (a : Adapter) : Prop :=
  GoodArgs E cfg a.unprocessed ∧
    (Policy.shortFormExpander ∈ n.policies → ∀ t ∈ a.processed, Text t.name)

/-- What is true besides until the short form expander has run: if the first token is just the short
prefix then there is another one. -/
def Unexpanded (E : Prop) (cfg : Config) (a : Adapter) : Prop :=
  ∀ t, a.processed.head? = some t → NotLone E cfg t ∨ a.unprocessed ≠ []

theorem good_transfer {E : Prop} {cfg : Config} {n : Node} {a : Adapter} (h : GoodAdapter E cfg n a)
    (it : AIter) : GoodAdapter E cfg n (a.transfer it) := by
  refine ⟨h.1.suffix transfer_suffix, fun he t ht => ?_⟩
  rcases transfer_mem.1 t ht with h1 | h1
  · exact h.2 he t h1
  · exact h.1.1 t h1

theorem begin_at : Adapter.begin_ = at_ 0 := rfl

theorem valueSeparator_sound {E : Prop} {cfg : Config} {n : Node} {sep : Bytes} {a : Adapter}
    (hs : sep.length = 1) (he : Policy.shortFormExpander ∉ n.policies) (h : GoodAdapter E cfg n a) :
    Sound (fun x => GoodAdapter E cfg n x.2) (valueSeparatorPhase cfg n sep a) := by
  unfold valueSeparatorPhase
  split
  · exact Sound.ok h
  · rename_i hne
    rw [(C03_size a).2] at hne
    have hlen : 0 < (tokenSeq a).length := List.length_pos_iff.2 hne
    simp only [begin_at, C03_read, List.getElem?_eq_getElem hlen, Out.ok_bind]
    cases hf : findFirstOf (tokenSeq a)[0].name sep with
    | none =>
      simp only
      generalize (if ((tokenSeq a)[0].pre == Prefix.none) = true then
        getTokenType cfg (tokenSeq a)[0].name else (tokenSeq a)[0]) = tt
      split <;> exact Sound.ok h
    | some idx =>
      simp only
      have hidx : idx < (tokenSeq a)[0].name.length := by
        unfold findFirstOf at hf
        exact (List.findIdx?_eq_some_iff_getElem.1 hf).1
      rw [if_pos (by omega)]
      split
      · exact Sound.ok h
      · have hb1 : (at_ 0).add 1 = at_ 1 := rfl
        obtain ⟨a1, e1, s1, -⟩ := C03_insert a 1
          ⟨.none, (tokenSeq a)[0].name.drop (idx + sep.length)⟩ hlen
        obtain ⟨a2, e2, -⟩ := C03_set a1 0
          ⟨(tokenSeq a)[0].pre, (tokenSeq a)[0].name.take idx⟩ (by rw [s1]; simp; omega)
        rw [hb1, e1]
        simp only [Out.ok_bind]
        rw [e2]
        simp only [Out.ok_bind, Out.pure_eq]
        exact Sound.ok ⟨h.1.suffix ((set_mem e2).2.trans (insert_mem e1)), fun hx => absurd hx he⟩

theorem shortForm_sound {E : Prop} (hE : E) {cfg : Config} (hc : AsciiPrefixes cfg) {n : Node} {a : Adapter}
    (he : Policy.shortFormExpander ∈ n.policies) (h : GoodAdapter E cfg n a) (hu : Unexpanded E cfg a) :
    Sound (fun x => GoodAdapter E cfg n x.2 ∧ Unexpanded E cfg x.2) (shortFormExpanderPhase cfg n a) := by
  unfold shortFormExpanderPhase
  split
  · exact Sound.ok ⟨h, hu⟩
  · rename_i hne
    rw [(C03_size a).2] at hne
    have hlen : 0 < (tokenSeq a).length := List.length_pos_iff.2 hne
    have hgood : Text (tokenSeq a)[0].name := by
      have : (tokenSeq a)[0] ∈ tokenSeq a := List.getElem_mem _
      rcases List.mem_append.1 this with h1 | h1
      · exact h.2 he _ h1
      · exact h.1.1 _ h1
    have hlone : NotLone E cfg (tokenSeq a)[0] ∨ (a.transfer (at_ 0)).unprocessed ≠ [] := by
      by_cases hx : (a.transfer (at_ 0)).unprocessed = []
      · left
        rw [(C04_transfer a 0 (by rw [size_eq]; exact hlen)).2.2] at hx
        obtain ⟨P, U⟩ := a
        cases P with
        | nil =>
          cases U with
          | nil => simp [tokenSeq] at hlen
          | cons u us =>
            simp only [tokenSeq, List.nil_append, List.length_nil, Nat.zero_add, Nat.max_zero,
              List.drop_succ_cons, List.drop_zero] at hx
            subst hx
            exact h.1.2 u rfl
        | cons p P =>
          rcases hu p rfl with h1 | h1
          · exact h1
          · have : max (0 + 1) (p :: P).length = (p :: P).length := by simp
            rw [tokenSeq, this, List.drop_left] at hx
            exact absurd hx h1
      · exact .inr hx
    dsimp only
    rw [begin_at, C03_read, List.getElem?_eq_getElem hlen]
    simp only [Out.ok_bind]
    have htt : Text (if ((tokenSeq a)[0].pre == Prefix.none) = true then
          n.getToken cfg (tokenSeq a)[0].name else (tokenSeq a)[0]).name ∧
        (NotLone E cfg (tokenSeq a)[0] → (if ((tokenSeq a)[0].pre == Prefix.none) = true then
          n.getToken cfg (tokenSeq a)[0].name else (tokenSeq a)[0]).pre = .short →
        (if ((tokenSeq a)[0].pre == Prefix.none) = true then
          n.getToken cfg (tokenSeq a)[0].name else (tokenSeq a)[0]).name ≠ []) := by
      split
      · rename_i hp
        have := getTokenTypeNode_text hc (l := n.longName.isSome) (sh := n.shortName.isSome) hgood
        exact ⟨this.1, fun hl => this.2 ((hl hE).1 (eq_of_beq hp))⟩
      · exact ⟨hgood, fun hl => (hl hE).2⟩
    generalize (if ((tokenSeq a)[0].pre == Prefix.none) = true then
          n.getToken cfg (tokenSeq a)[0].name else (tokenSeq a)[0]) = tt at htt
    split
    · exact Sound.ok ⟨h, hu⟩
    · rename_i hshort
      have hshort : tt.pre = .short := by simpa using hshort
      have hname : tt.name ≠ [] ∨ (a.transfer (at_ 0)).unprocessed ≠ [] :=
        hlone.imp (fun hl => htt.2 hl hshort) id
      split
      · exact Sound.ok ⟨h, hu⟩
      · have hpos : 0 < (a.transfer (at_ 0)).unprocessed.length + tt.name.length := by
          rcases hname with h1 | h1 <;> have := List.length_pos_iff.2 h1 <;> omega
        have hz : ((a.transfer (at_ 0)).unprocessed.length + tt.name.length == 0) = false :=
          beq_eq_false_iff_ne.2 (by omega)
        simp only [hz, Bool.false_eq_true, if_false]
        obtain ⟨gs, hg, hgs⟩ := text_graphemes htt.1
        rw [hg]
        simp only [Out.ok_bind]
        have hgne : tt.name ≠ [] → gs ≠ [] := by
          rintro hname rfl
          have := ((C41_any_bytes tt.name).2 [] hg).1
          exact hname this.symm
        have hnew : ∀ g ∈ gs, Text g ∧ NotLone E cfg ⟨.short, g⟩ := fun g hgm =>
          ⟨(hgs g hgm).1, fun _ => ⟨by simp, fun _ => (hgs g hgm).2⟩⟩
        have hproc : 0 < (a.transfer (at_ 0)).processed.length := by
          have := (C04_transfer a 0 (by rw [size_eq]; exact hlen)).2.1
          rw [this, List.length_take]
          omega
        have hlen2 : 0 < (tokenSeq ⟨(a.transfer (at_ 0)).processed,
            gs.tail.map (Token.mk .short) ++ (a.transfer (at_ 0)).unprocessed⟩).length := by
          simp only [tokenSeq, List.length_append]
          omega
        obtain ⟨a2, e2, hseq⟩ := C03_set ⟨(a.transfer (at_ 0)).processed,
            gs.tail.map (Token.mk .short) ++ (a.transfer (at_ 0)).unprocessed⟩ 0
            ⟨.short, gs.headD []⟩ hlen2
        rw [e2]
        simp only [Out.ok_bind, Out.pure_eq]
        have hun : GoodArgs E cfg (gs.tail.map (Token.mk .short) ++ (a.transfer (at_ 0)).unprocessed) := by
          refine (good_transfer h (at_ 0)).1.append fun t ht => ?_
          obtain ⟨g, hgm, rfl⟩ := List.mem_map.1 ht
          exact hnew g (List.mem_of_mem_tail hgm)
        refine Sound.ok ⟨⟨hun.suffix (set_mem e2).2, fun _ t ht => ?_⟩, fun t ht => ?_⟩
        · rcases (set_mem e2).1 t ht with h1 | h1 | h1
          · exact (good_transfer h (at_ 0)).2 he t h1
          · exact hun.1 t h1
          · subst h1
            cases gs with
            | nil => exact text_nil
            | cons g gs => exact (hnew g List.mem_cons_self).1
        · have hfirst : t = ⟨.short, gs.headD []⟩ := by
            have h1 : (tokenSeq a2).head? = some t := by
              unfold tokenSeq
              rw [List.head?_append, ht]; rfl
            rw [hseq, List.head?_eq_getElem?, List.getElem?_set_self hlen2] at h1
            exact (Option.some.inj h1).symm
          cases gs with
          | cons g gs => exact .inl (hfirst ▸ (hnew g List.mem_cons_self).2)
          | nil =>
            right
            have hne : (a.transfer (at_ 0)).unprocessed ≠ [] :=
              hname.resolve_left fun h1 => hgne h1 rfl
            intro hx
            -- what was not processed stays
            unfold Adapter.set at e2
            simp only at e2
            split at e2
            · simp only [Out.ok.injEq] at e2
              subst e2
              have hsz : 0 < (Adapter.mk (a.transfer (at_ 0)).processed
                  ((([] : List Bytes).tail.map (Token.mk .short)) ++
                    (a.transfer (at_ 0)).unprocessed)).size := by
                rw [size_eq]; exact hlen2
              have := (C04_transfer _ 0 hsz).2.2
              simp only at hx
              rw [this] at hx
              simp only [tokenSeq, List.tail_nil, List.map_nil, List.nil_append] at hx
              rw [show max (0 + 1) (a.transfer (at_ 0)).processed.length =
                (a.transfer (at_ 0)).processed.length by omega, List.drop_left] at hx
              exact hne hx
            · cases e2

theorem marker_sound {E : Prop} {cfg : Config} {n : Node} {m : Bytes} {a : Adapter}
    (h : GoodAdapter E cfg n a) :
    Sound (fun x => GoodAdapter E cfg n x.2) (tokenEndMarkerPhase n m a) := by
  unfold tokenEndMarkerPhase
  have hit : ∃ k, a.findFrom (fun t => t.name == m) (a.size + 1)
      (Adapter.begin_.add (if n.isNamed then 1 else 0)) = .ok (at_ k) := by
    have e : Adapter.begin_.add (if n.isNamed then 1 else 0) =
        at_ (if n.isNamed then 1 else 0) := by cases n.isNamed <;> rfl
    rw [e]
    by_cases hl : (if n.isNamed = true then 1 else 0) ≤ (tokenSeq a).length
    · rw [C03_find a _ _ hl _ (by omega)]
      split
      · exact ⟨_, rfl⟩
      · exact ⟨_, rfl⟩
    · refine ⟨if n.isNamed then 1 else 0, ?_⟩
      rw [Adapter.findFrom, (C03_iterate a _ 0).1.2 (by omega), if_pos rfl]
  obtain ⟨k, hk⟩ := hit
  rw [hk]
  simp only [Out.ok_bind]
  have hg := good_transfer h (at_ k)
  have hin : k < (tokenSeq (a.transfer (at_ k))).length → k < (a.transfer (at_ k)).processed.length := by
    intro hl
    rw [(C04_transfer_any a _).1] at hl
    rw [(C04_transfer a k (by rw [size_eq]; exact hl)).2.1, List.length_take]
    omega
  generalize a.transfer (at_ k) = c at hg hin
  have : ∃ c' it', c.erase (at_ k) = .ok (c', it') ∧ c'.unprocessed = c.unprocessed ∧
      ∀ t ∈ c'.processed, t ∈ c.processed := by
    by_cases hl : k < (tokenSeq c).length
    · have he : c.isEnd (at_ k) = false := by rw [isEnd_at, size_eq]; simpa using hl
      have hi : (at_ k).i = k := by simp [at_, AIter.add, Adapter.begin_]
      have hpr := hin hl
      unfold Adapter.erase
      rw [he]
      simp only [Bool.false_eq_true, if_false, hi]
      rw [if_neg (by omega), if_pos (by omega)]
      exact ⟨_, _, rfl, rfl, fun t ht => List.mem_of_mem_eraseIdx ht⟩
    · exact ⟨c, _, C03_erase_end c _ (by rw [isEnd_at, size_eq]; simp; omega), rfl, fun _ h => h⟩
  obtain ⟨c', it', e, h1, h2⟩ := this
  rw [e]
  simp only [Out.ok_bind, Out.pure_eq]
  exact Sound.ok ⟨by rw [h1]; exact hg.1, fun hx t ht => hg.2 hx t (h2 t ht)⟩

/-- What is kept true of the sub-targets. -/
def GoodLeaf (root : Node) (l : Leaf) : Prop := Runnable l.node = true ∧ l.node ∈ root.nodes

/-- Where a node with alias or dependent policies is: in a mode with a router, whose target is being
built. -/
def InMode (n : Node) (parents : List Node) (processed : Option Target) : Prop :=
  (HasAlias n ∨ HasDependent n) → (nearestModeLike parents).isSome = true ∧ processed.isSome = true

theorem nearest_cons {n : Node} {ps : List Node} (h : (nearestModeLike ps).isSome = true) :
    (nearestModeLike (n :: ps)).isSome = true := by
  unfold nearestModeLike at h ⊢
  rw [List.find?_cons]
  split
  · rfl
  · exact h

theorem minMaxCount_snd (n : Node) (mn mx : Nat) (a : Adapter) :
    (minMaxCountPhase n mn mx a).2 = a ∨ ∃ it, (minMaxCountPhase n mn mx a).2 = a.transfer it := by
  unfold minMaxCountPhase
  dsimp only
  generalize (if mn = sizeMax then mn else mn + if n.isNamed = true then 1 else 0) = x
  generalize (if mx = sizeMax then mx else mx + if n.isNamed = true then 1 else 0) = y
  generalize (if n.hasTokenEndMarker = true then a.processed.length else a.size) = z
  split
  · exact .inl rfl
  · split
    · exact .inl rfl
    · exact .inr ⟨_, rfl⟩

theorem phase_sound {E : Prop} {cfg : Config} {root n : Node}
    (hr : ∀ m ∈ root.nodes, SoundNode m) (hn : n ∈ root.nodes) {parents : List Node}
    (hp : ∀ p ∈ parents, p ∈ root.nodes) {processed : Option Target}
    (him : InMode n parents processed) {p : Policy} (hpol : p ∈ n.policies) {a : Adapter}
    (ha : GoodAdapter E cfg n a) (hx : p ≠ .shortFormExpander) {subs : List Leaf}
    (hs : ∀ l ∈ subs, GoodLeaf root l) :
    Sound (fun x => GoodAdapter E cfg n x.2.1 ∧ ∀ l ∈ x.2.2, GoodLeaf root l)
      (p.phase cfg n parents processed a subs) := by
  have hsn := hr n hn
  cases p with
  | valueSeparator s =>
    have := hsn.separator s hpol
    exact (valueSeparator_sound this.1 this.2 ha).bind fun x hx => Sound.ok ⟨hx, hs⟩
  | shortFormExpander => exact absurd rfl hx
  | tokenEndMarker m => exact (marker_sound ha).bind fun x hx => Sound.ok ⟨hx, hs⟩
  | runtimeEnable e => exact Sound.ok ⟨ha, hs⟩
  | runtimeEnableRequired e v => exact Sound.ok ⟨ha, hs⟩
  | minMaxCount mn mx =>
    simp only [Policy.phase]
    refine Sound.ok ⟨?_, hs⟩
    rcases minMaxCount_snd n mn mx a with e | ⟨it, e⟩
    · rw [e]; exact ha
    · rw [e]; exact good_transfer ha _
  | alias refs =>
    simp only [Policy.phase, aliasPhase]
    have h1 := hsn.aliasCount ⟨refs, hpol⟩
    have h2 := nearest_cons (n := n) (him (.inl ⟨refs, hpol⟩)).1
    obtain ⟨⟨count, mx⟩, hcount⟩ := Option.isSome_iff_exists.1 h1
    obtain ⟨mode, hmode⟩ := Option.isSome_iff_exists.1 h2
    rw [hcount, hmode]
    simp only
    split
    · exact Sound.ok ⟨ha, hs⟩
    · rename_i hsz
      have hlen : 0 < (tokenSeq a).length := by rw [← size_eq]; omega
      rw [begin_at, C03_read, List.getElem?_eq_getElem hlen]
      simp only [Out.ok_bind]
      generalize (if ((tokenSeq a)[0].pre == Prefix.none) = true then
        n.getToken cfg (tokenSeq a)[0].name else (tokenSeq a)[0]) = tt
      split
      · exact Sound.ok ⟨ha, hs⟩
      · refine Sound.ok ⟨⟨(good_transfer ha _).1, fun hx t ht =>
          (good_transfer ha _).2 hx t (List.mem_of_mem_drop ht)⟩, ?_⟩
        intro l hl
        rcases List.mem_append.1 hl with hl | hl
        · exact hs l hl
        · obtain ⟨x, hx, rfl⟩ := List.mem_map.1 hl
          obtain ⟨hx1, hx2⟩ := List.mem_filter.1 hx
          have hmr : mode ∈ root.nodes := by
            rcases List.mem_cons.1 (nearest_mem hmode) with rfl | h3
            · exact hn
            · exact hp _ h3
          have hxr := nodes_trans _ _ hmr _ hx1
          refine ⟨(hr x hxr).named ?_, hxr⟩
          intro he
          simp [he] at hx2
  | dependent refs =>
    obtain ⟨h1, h2⟩ := him (.inr ⟨refs, hpol⟩)
    obtain ⟨mode, hmode⟩ := Option.isSome_iff_exists.1 h1
    obtain ⟨tg, htg⟩ := Option.isSome_iff_exists.1 h2
    simp only [Policy.phase, dependentPhase, hmode, htg]
    cases (mode.owners refs).find? fun n =>
      !(tg.node.hash == n.hash || tg.subs.any fun s => s.node.hash == n.hash) with
    | none => exact Sound.ok ⟨ha, hs⟩
    | some x => exact Sound.ok ⟨ha, hs⟩
  | longName _ => exact Sound.ok ⟨ha, hs⟩
  | shortName _ => exact Sound.ok ⟨ha, hs⟩
  | noneName _ => exact Sound.ok ⟨ha, hs⟩
  | displayName _ => exact Sound.ok ⟨ha, hs⟩
  | errorName _ => exact Sound.ok ⟨ha, hs⟩
  | description _ => exact Sound.ok ⟨ha, hs⟩
  | required => exact Sound.ok ⟨ha, hs⟩
  | defaultValue _ => exact Sound.ok ⟨ha, hs⟩
  | minMaxValue _ _ _ => exact Sound.ok ⟨ha, hs⟩
  | validation _ _ => exact Sound.ok ⟨ha, hs⟩
  | customParser _ => exact Sound.ok ⟨ha, hs⟩
  | helpText _ => exact Sound.ok ⟨ha, hs⟩
  | router => exact Sound.ok ⟨ha, hs⟩
  | multiStage _ => exact Sound.ok ⟨ha, hs⟩
  | noResult => exact Sound.ok ⟨ha, hs⟩
  | other _ => exact Sound.ok ⟨ha, hs⟩

theorem runPhases_sound {cfg : Config} (hc : AsciiPrefixes cfg) {root n : Node}
    (hr : ∀ m ∈ root.nodes, SoundNode m) (hn : n ∈ root.nodes) {parents : List Node}
    (hp : ∀ p ∈ parents, p ∈ root.nodes) {processed : Option Target}
    (him : InMode n parents processed) (ps : List Policy) (hps : ∀ p ∈ ps, p ∈ n.policies)
    (hdesc : Desc ps) :
    ∀ (m : PreResult) (a : Adapter) (subs : List Leaf), GoodAdapter (Expands root) cfg n a →
    (Policy.shortFormExpander ∈ ps → Unexpanded (Expands root) cfg a) → (∀ l ∈ subs, GoodLeaf root l) →
    Sound (fun x => GoodAdapter (Expands root) cfg n x.2.1 ∧ ∀ l ∈ x.2.2, GoodLeaf root l)
      (runPhases cfg n parents processed ps m a subs) := by
  induction ps with
  | nil => intro m a subs ha _ hs; exact Sound.ok ⟨ha, hs⟩
  | cons p ps ih =>
    intro m a subs ha hu hs
    have ih := ih (fun q hq => hps q (List.mem_cons_of_mem _ hq)) (List.pairwise_cons.1 hdesc).2
    have hph : p.hasPreParse = true → Sound (fun x => GoodAdapter (Expands root) cfg n x.2.1 ∧
        (Policy.shortFormExpander ∈ ps → Unexpanded (Expands root) cfg x.2.1) ∧ ∀ l ∈ x.2.2, GoodLeaf root l)
        (p.phase cfg n parents processed a subs) := by
      intro hpre
      by_cases hx : p = .shortFormExpander
      · subst hx
        exact (shortForm_sound ⟨n, hn, hps _ List.mem_cons_self⟩ hc (hps _ List.mem_cons_self) ha (hu List.mem_cons_self)).bind
          fun x hx => Sound.ok ⟨hx.1, fun _ => hx.2, hs⟩
      · refine (phase_sound hr hn hp him (hps p List.mem_cons_self) ha hx hs).imp
          fun x h => ⟨h.1, fun hin => ?_, h.2⟩
        have hle := (List.pairwise_cons.1 hdesc).1 _ hin
        exfalso
        cases p <;> simp [Policy.priority, Policy.hasPreParse] at hle hpre
        · exact ((hr n hn).separator _ (hps _ List.mem_cons_self)).2
            (hps _ (List.mem_cons_of_mem _ hin))
        · exact hx rfl
    unfold runPhases
    split
    · rename_i hpre
      match m with
      | .error e => exact Sound.ok ⟨ha, hs⟩
      | .ok .skipNode => exact Sound.ok ⟨ha, hs⟩
      | .ok .validNode => exact (hph hpre).bind fun x hx => ih _ _ _ hx.1 hx.2.1 hx.2.2
      | .ok .skipNodeButUseSubTargets =>
        exact (hph hpre).bind fun x hx => ih _ _ _ hx.1 hx.2.1 hx.2.2
    · exact ih _ _ _ ha (fun h => hu (List.mem_cons_of_mem _ h)) hs

/-! ## Matching -/

/-- What is known of a match: the target's node, its sub-targets and the arguments left. -/
def GoodMatch (cfg : Config) (root : Node) (P : Node → Prop) (r : Option (Target × List Token)) :
    Prop :=
  ∀ t args, r = some (t, args) → P t.node ∧ (∀ l ∈ t.subs, GoodLeaf root l) ∧
    GoodArgs (Expands root) cfg args

theorem goodMatch_none {cfg : Config} {root : Node} {P : Node → Prop} :
    GoodMatch cfg root P none := fun _ _ h => by cases h

theorem checkLabel_unprocessed {cfg : Config} {n : Node} {m : PreResult} {a a' : Adapter}
    (h : checkLabel cfg n m a = some a') : a'.unprocessed <:+ a.unprocessed := by
  have key : (if n.isNamed then
      let a : Option Adapter :=
        match a.processed, a.unprocessed with
        | [], [] => none
        | [], u :: us => some ⟨[u], us⟩
        | _ :: _, _ => some a
      match a with
      | none => none
      | some ⟨[], _⟩ => none
      | some ⟨first :: rest, us⟩ =>
        let first := if first.pre == .none then n.getToken cfg first.name else first
        if n.matchToken first then some ⟨first :: rest, us⟩ else none
    else some a) = some a' → a'.unprocessed <:+ a.unprocessed := by
    intro h
    split at h
    · obtain ⟨P, U⟩ := a
      cases P with
      | nil =>
        cases U with
        | nil => simp at h
        | cons u us =>
          dsimp only at h
          generalize (if (u.pre == Prefix.none) = true then n.getToken cfg u.name else u) = f at h
          by_cases hm : n.matchToken f = true
          · rw [if_pos hm] at h
            simp only [Option.some.injEq] at h
            subst h
            exact List.suffix_cons _ _
          · rw [if_neg hm] at h; cases h
      | cons x xs =>
        dsimp only at h
        generalize (if (x.pre == Prefix.none) = true then n.getToken cfg x.name else x) = f at h
        by_cases hm : n.matchToken f = true
        · rw [if_pos hm] at h
          simp only [Option.some.injEq] at h
          subst h
          exact List.suffix_refl _
        · rw [if_neg hm] at h; cases h
    · simp only [Option.some.injEq] at h
      subst h
      exact List.suffix_refl _
  unfold checkLabel at h
  match m with
  | .ok .skipNode => simp at h
  | .ok .skipNodeButUseSubTargets =>
    simp only [Option.some.injEq] at h
    subst h
    exact List.suffix_refl _
  | .ok .validNode => exact key h
  | .error e => exact key h

theorem leaf_sound {cfg : Config} (hc : AsciiPrefixes cfg) {root n : Node}
    (hr : ∀ m ∈ root.nodes, SoundNode m) (hn : n ∈ root.nodes) {parents : List Node}
    (hp : ∀ p ∈ parents, p ∈ root.nodes) {processed : Option Target}
    (him : InMode n parents processed) {args : List Token} (ha : GoodArgs (Expands root) cfg args)
    {validator : Validator} (hv : ∀ x, SoundM (fun _ => True) (validator x)) :
    SoundM (GoodMatch cfg root (· = n)) (leafPreParse cfg n parents args processed validator) := by
  unfold leafPreParse
  refine SoundM.bind (SoundM.lift (runPhases_sound hc hr hn hp him _
    (fun p hp => mem_sortPolicies.1 hp) (sortPolicies_desc _) _ _ _ ⟨ha, by simp⟩
    (fun _ t ht => by simp at ht) (by simp))) ?_
  rintro ⟨m, a, subs⟩ ⟨h1, h2⟩
  simp only
  cases hl : checkLabel cfg n m a with
  | none => exact SoundM.pure goodMatch_none
  | some a' =>
    refine SoundM.bind (hv n) fun ok _ => ?_
    cases ok
    · exact SoundM.pure goodMatch_none
    · cases m with
      | error e => exact SoundM.throw e
      | ok act =>
        refine SoundM.pure ?_
        intro t args' e
        simp only [Option.some.injEq, Prod.mk.injEq] at e
        obtain ⟨rfl, rfl⟩ := e
        exact ⟨rfl, h2, h1.1.suffix (checkLabel_unprocessed hl)⟩

theorem oneOfValidator_sound {o : Node} {inner : Validator}
    (hi : ∀ x, SoundM (fun _ => True) (inner x)) (c : Node) :
    SoundM (fun _ => True) (oneOfValidator o inner c) := by
  intro s
  show Sound _ ((match s.lastTypeId o.uid with
      | some h =>
        if h ≠ c.hash then M.throw ⟨.one_of_selected_type_mismatch, [o.tokenType]⟩
        else inner c
      | none => do
        (fun s => (.ok (), { s with sel := (o.uid, c.hash) :: s.sel }) : M Unit)
        inner c : M Bool) s).1
  cases s.lastTypeId o.uid with
  | none => exact hi c _
  | some h =>
    simp only
    split
    · exact Sound.throw _
    · exact hi c _

/-- The nodes that a non-mode child may offer: its own nodes, none a mode, none root. -/
structure LeafTree (root n : Node) (parents : List Node) (processed : Option Target) : Prop where
  nodes : ∀ m ∈ n.nodes, m ∈ root.nodes
  kinds : ∀ m ∈ n.nodes, m.kind ≠ .mode ∧ m.kind ≠ .root
  inMode : ∀ m ∈ n.nodes, InMode m parents processed

mutual
theorem preParse_sound {cfg : Config} (hc : AsciiPrefixes cfg) {root : Node}
    (hr : ∀ m ∈ root.nodes, SoundNode m) {parents : List Node}
    (hp : ∀ p ∈ parents, p ∈ root.nodes) {processed : Option Target} {args : List Token}
    (ha : GoodArgs (Expands root) cfg args) : ∀ (n : Node) (validator : Validator),
    LeafTree root n parents processed → (∀ x, SoundM (fun _ => True) (validator x)) →
    SoundM (GoodMatch cfg root (fun x => x ∈ root.nodes ∧ Runnable x = true))
      (preParse cfg parents args processed n validator)
  | .mk k u h v p cs, validator, ht, hv => by
    have hself := self_mem_nodes (.mk k u h v p cs)
    have hsub : ∀ c ∈ cs, LeafTree root c parents processed := fun c hcm =>
      ⟨fun m hm => ht.nodes m (child_mem_nodes hcm m hm),
        fun m hm => ht.kinds m (child_mem_nodes hcm m hm),
        fun m hm => ht.inMode m (child_mem_nodes hcm m hm)⟩
    have hleaf : Runnable (.mk k u h v p cs) = true →
        SoundM (GoodMatch cfg root (fun x => x ∈ root.nodes ∧ Runnable x = true))
        (leafPreParse cfg (.mk k u h v p cs) parents args processed validator) := fun hrun =>
      (leaf_sound hc hr (ht.nodes _ hself) hp (ht.inMode _ hself) ha hv).imp fun r hr' t args' e => by
        obtain ⟨h1, h2⟩ := hr' t args' e
        exact ⟨by rw [h1]; exact ⟨ht.nodes _ hself, hrun⟩, h2⟩
    cases k
    case aliasGroup =>
      rw [preParse_aliasGroup]; exact preParseGroup_sound hc hr hp ha cs validator hsub hv
    case oneOf =>
      rw [preParse_oneOf]
      exact preParseOneOf_sound hc hr hp ha cs _ hsub (oneOfValidator_sound hv)
    case mode => exact absurd rfl (ht.kinds _ hself).1
    case root => exact absurd rfl (ht.kinds _ hself).2
    all_goals
      rw [preParse_leaf _ _ _ _ _ _ (by rfl)]
      exact hleaf rfl
theorem preParseGroup_sound {cfg : Config} (hc : AsciiPrefixes cfg) {root : Node}
    (hr : ∀ m ∈ root.nodes, SoundNode m) {parents : List Node}
    (hp : ∀ p ∈ parents, p ∈ root.nodes) {processed : Option Target} {args : List Token}
    (ha : GoodArgs (Expands root) cfg args) : ∀ (ns : List Node) (validator : Validator),
    (∀ n ∈ ns, LeafTree root n parents processed) → (∀ x, SoundM (fun _ => True) (validator x)) →
    SoundM (GoodMatch cfg root (fun x => x ∈ root.nodes ∧ Runnable x = true))
      (preParseGroup cfg parents args processed validator ns)
  | [], validator, ht, hv => by rw [preParseGroup]; exact SoundM.pure goodMatch_none
  | c :: cs, validator, ht, hv => by
    rw [preParseGroup]
    refine SoundM.bind (preParse_sound hc hr hp ha c validator (ht c List.mem_cons_self) hv) ?_
    intro o ho
    cases o with
    | none => 
      exact preParseGroup_sound hc hr hp ha cs validator
        (fun n hn => ht n (List.mem_cons_of_mem _ hn)) hv
    | some r => exact SoundM.pure ho
theorem preParseOneOf_sound {cfg : Config} (hc : AsciiPrefixes cfg) {root : Node}
    (hr : ∀ m ∈ root.nodes, SoundNode m) {parents : List Node}
    (hp : ∀ p ∈ parents, p ∈ root.nodes) {processed : Option Target} {args : List Token}
    (ha : GoodArgs (Expands root) cfg args) : ∀ (ns : List Node) (validator : Validator),
    (∀ n ∈ ns, LeafTree root n parents processed) → (∀ x, SoundM (fun _ => True) (validator x)) →
    SoundM (GoodMatch cfg root (fun x => x ∈ root.nodes ∧ Runnable x = true))
      (preParseOneOf cfg parents args processed validator ns)
  | [], validator, ht, hv => by rw [preParseOneOf]; exact SoundM.pure goodMatch_none
  | c :: cs, validator, ht, hv => by
    rw [preParseOneOf]
    refine SoundM.bind (preParse_sound hc hr hp ha c validator (ht c List.mem_cons_self) hv) ?_
    intro o ho
    cases o with
    | none => 
      exact preParseOneOf_sound hc hr hp ha cs validator
        (fun n hn => ht n (List.mem_cons_of_mem _ hn)) hv
    | some r => exact SoundM.bind (hv c) fun _ _ => SoundM.pure ho
end

theorem verifyMatch_sound (already : Bool) (front : Token) (n : Node) :
    SoundM (fun _ => True) (verifyMatch already front n) := by
  unfold verifyMatch
  split
  · exact SoundM.pure trivial
  · split
    · split
      · exact SoundM.throw _
      · exact SoundM.pure trivial
    · exact SoundM.pure trivial

/-! ## Modes -/

mutual
theorem nonMode_nodes {root : Node} (hk : ∀ p ∈ root.nodes, ∀ c ∈ p.children, c.kind ≠ .root ∧
    (c.kind = .mode → p.kind = .mode ∨ p.kind = .root)) : ∀ n : Node, n ∈ root.nodes →
    n.kind ≠ .mode → n.kind ≠ .root → ∀ m ∈ n.nodes, m.kind ≠ .mode ∧ m.kind ≠ .root
  | .mk k u h v p cs, hn, h1, h2, m, hm => by
    rw [nodes_mk] at hm
    rcases List.mem_cons.1 hm with rfl | hm
    · exact ⟨h1, h2⟩
    · refine nonModeList_nodes hk cs (fun c hc => ⟨?_, ?_, ?_⟩) m hm
      · exact nodes_trans _ _ hn _ (child_mem_nodes hc _ (self_mem_nodes _))
      · intro he
        rcases (hk _ hn c hc).2 he with h3 | h3
        · exact h1 h3
        · exact h2 h3
      · exact (hk _ hn c hc).1
theorem nonModeList_nodes {root : Node} (hk : ∀ p ∈ root.nodes, ∀ c ∈ p.children, c.kind ≠ .root ∧
    (c.kind = .mode → p.kind = .mode ∨ p.kind = .root)) : ∀ ns : List Node,
    (∀ n ∈ ns, n ∈ root.nodes ∧ n.kind ≠ .mode ∧ n.kind ≠ .root) →
    ∀ m ∈ nodesList ns, m.kind ≠ .mode ∧ m.kind ≠ .root
  | [], _, m, hm => by simp [nodesList] at hm
  | n :: ns, h, m, hm => by
    simp only [nodesList, List.flatMap_cons, List.mem_append] at hm
    rcases hm with hm | hm
    · obtain ⟨h1, h2, h3⟩ := h n List.mem_cons_self
      exact nonMode_nodes hk n h1 h2 h3 m hm
    · exact nonModeList_nodes hk ns (fun n hn => h n (List.mem_cons_of_mem _ hn)) m hm
end

theorem leafTree_child {root mode c : Node} (hr : SoundTree root) (hm : mode ∈ root.nodes)
    (hk : mode.kind = .mode) (hc : c ∈ mode.children) (hck : c.kind ≠ .mode) (parents : List Node)
    (target : Target) : LeafTree root c (mode :: parents) (some target) := by
  have hmem : c ∈ root.nodes := nodes_trans _ _ hm _ (child_mem_nodes hc _ (self_mem_nodes _))
  refine ⟨nodes_trans _ _ hmem, nonMode_nodes hr.kinds c hmem hck (hr.kinds _ hm c hc).1, ?_⟩
  intro m _ _
  refine ⟨?_, rfl⟩
  rcases hr.routed _ hm hk with h | h
  · simp [nearestModeLike, h]
  · exact absurd (h c hc) hck

/-- What is known after one step of a mode. -/
def GoodStep (cfg : Config) (root : Node) (r : Option (Nat × Target × List Token)) : Prop :=
  ∀ i t args, r = some (i, t, args) → GoodLeaf root ⟨t.node, t.tokens⟩ ∧
    (∀ l ∈ t.subs, GoodLeaf root l) ∧ GoodArgs (Expands root) cfg args

theorem modeStep_sound {cfg : Config} (hc : AsciiPrefixes cfg) {root mode : Node}
    (hr : SoundTree root) (hm : mode ∈ root.nodes) (hk : mode.kind = .mode) {parents : List Node}
    (hp : ∀ p ∈ parents, p ∈ root.nodes) (target : Target) (matched : List Bool) (front : Token)
    {args : List Token} (ha : GoodArgs (Expands root) cfg args) (cs : List Node)
    (hcs : ∀ c ∈ cs, c ∈ mode.children) (i : Nat) :
    SoundM (GoodStep cfg root) (modeStep cfg (mode :: parents) target matched front args cs i) := by
  induction cs generalizing i with
  | nil => exact SoundM.pure fun _ _ _ h => by cases h
  | cons c cs ih =>
    have ih := ih fun c hc => hcs c (List.mem_cons_of_mem _ hc)
    rw [modeStep]
    split
    · exact ih _
    · rename_i hck
      have hck : c.kind ≠ .mode := by simpa using hck
      have hpp : ∀ p ∈ mode :: parents, p ∈ root.nodes := by
        intro p hpm
        rcases List.mem_cons.1 hpm with rfl | h
        · exact hm
        · exact hp p h
      refine SoundM.bind (preParse_sound hc hr.node hpp ha c _
        (leafTree_child hr hm hk (hcs c List.mem_cons_self) hck parents target)
        (verifyMatch_sound _ _)) ?_
      intro o ho
      cases o with
      | none => exact ih _
      | some x =>
        obtain ⟨t, args'⟩ := x
        refine SoundM.pure fun j t' args'' e => ?_
        simp only [Option.some.injEq, Prod.mk.injEq] at e
        obtain ⟨-, rfl, rfl⟩ := e
        obtain ⟨⟨h1, h2⟩, h3, h4⟩ := ho _ _ rfl
        exact ⟨⟨h2, h1⟩, h3, h4⟩

theorem modeLoop_sound {cfg : Config} (hc : AsciiPrefixes cfg) {root mode : Node}
    (hr : SoundTree root) (hm : mode ∈ root.nodes) (hk : mode.kind = .mode) {parents : List Node}
    (hp : ∀ p ∈ parents, p ∈ root.nodes) (fuel : Nat) : ∀ (target : Target) (matched : List Bool)
    (args : List Token), (GoodArgs (Expands root) cfg args) → target.node = mode →
    (∀ l ∈ target.subs, GoodLeaf root l) →
    SoundM (fun r => r.1.node = mode ∧ (∀ l ∈ r.1.subs, GoodLeaf root l) ∧
      GoodArgs (Expands root) cfg r.2) (modeLoop cfg mode parents fuel target matched args) := by
  have hnil : ∀ fuel (target : Target) matched, target.node = mode →
      (∀ l ∈ target.subs, GoodLeaf root l) →
      SoundM (fun r => r.1.node = mode ∧ (∀ l ∈ r.1.subs, GoodLeaf root l) ∧
        GoodArgs (Expands root) cfg r.2) (modeLoop cfg mode parents fuel target matched []) := by
    intro fuel target matched ht hs
    rw [modeLoop]
    exact SoundM.pure ⟨ht, hs, goodArgs_nil⟩
  induction fuel with
  | zero =>
    intro target matched args ha ht hs
    cases args with
    | nil => exact hnil _ _ _ ht hs
    | cons front rest => rw [modeLoop]; exact SoundM.lift Sound.diverge
  | succ fuel ih =>
    intro target matched args ha ht hs
    cases args with
    | nil => exact hnil _ _ _ ht hs
    | cons front rest =>
      rw [modeLoop]
      refine SoundM.bind (modeStep_sound hc hr hm hk hp target matched front ha _
        (fun _ h => h) 0) ?_
      intro o ho
      cases o with
      | none =>
        simp only
        split
        · exact SoundM.throw _
        · exact SoundM.lift (unknownArgument_sound hc
            (fun m hmm => hr.node m (nodes_trans _ _ hm _ hmm)) (ha.1 front List.mem_cons_self))
      | some x =>
        obtain ⟨i, t, args'⟩ := x
        obtain ⟨h1, h2, h3⟩ := ho _ _ _ rfl
        refine ih _ _ _ h3 ht ?_
        intro l hl
        rcases List.mem_append.1 hl with hl | hl
        · exact hs l hl
        · unfold flattenMatch at hl
          split at hl
          · simp only [List.mem_singleton] at hl; subst hl; exact h1
          · exact h2 l hl

/-- What is known of the target a mode returns. -/
def GoodMode (cfg : Config) (root : Node) (r : Option (Target × List Token)) : Prop :=
  ∀ t args, r = some (t, args) → t.node ∈ root.nodes ∧ t.node.kind = .mode ∧
    (∀ l ∈ t.subs, GoodLeaf root l) ∧ GoodArgs (Expands root) cfg args

theorem modeBody_sound {cfg : Config} (hc : AsciiPrefixes cfg) {root mode : Node}
    (hr : SoundTree root) (hm : mode ∈ root.nodes) (hk : mode.kind = .mode) {parents : List Node}
    (hp : ∀ p ∈ parents, p ∈ root.nodes) {args : List Token} (ha : GoodArgs (Expands root) cfg args)
    {validator : Validator} (hv : ∀ x, SoundM (fun _ => True) (validator x)) :
    SoundM (GoodMode cfg root) (modeBody cfg mode parents validator args) := by
  unfold modeBody
  refine SoundM.bind (hv mode) fun ok _ => ?_
  split
  · exact SoundM.pure fun _ _ h => by cases h
  · refine SoundM.bind (modeLoop_sound hc hr hm hk hp _ _ _ _ ha rfl (by simp)) fun r h => ?_
    refine SoundM.pure fun t args e => ?_
    simp only [Option.some.injEq] at e
    subst e
    exact ⟨by rw [h.1]; exact hm, by rw [h.1]; exact hk, h.2.1, h.2.2⟩

mutual
theorem preParseMode_sound {cfg : Config} (hc : AsciiPrefixes cfg) {root : Node}
    (hr : SoundTree root) {validator : Validator} (hv : ∀ x, SoundM (fun _ => True) (validator x)) :
    ∀ (n : Node) (parents : List Node) (args : List Token), n ∈ root.nodes → n.kind = .mode →
    (∀ p ∈ parents, p ∈ root.nodes) → (GoodArgs (Expands root) cfg args) →
    SoundM (GoodMode cfg root) (preParseMode cfg parents args validator n)
  | .mk k u h v p cs, parents, args, hn, hk, hp, ha => by
    rw [preParseMode]
    split
    · exact modeBody_sound hc hr hn hk hp ha hv
    · refine SoundM.bind (leaf_sound hc hr.node hn hp ?_ ha hv) ?_
      · rintro (h1 | h1)
        · exact absurd h1 ((hr.node _ hn).mode hk).1
        · exact absurd h1 ((hr.node _ hn).mode hk).2
      · intro o ho
        cases o with
        | none => exact SoundM.pure fun _ _ h => by cases h
        | some x =>
          obtain ⟨t, args'⟩ := x
          obtain ⟨-, -, ha'⟩ := ho _ _ rfl
          simp only
          split
          · exact modeBody_sound hc hr hn hk hp ha' hv
          · refine SoundM.bind (preParseChildModes_sound hc hr hv cs _ args' ?_ ?_ ha') ?_
            · exact fun c hcm => nodes_trans _ _ hn _
                (child_mem_nodes (n := .mk k u h v p cs) hcm _ (self_mem_nodes _))
            · intro q hq
              rcases List.mem_cons.1 hq with rfl | hq
              · exact hn
              · exact hp q hq
            · intro o ho
              cases o with
              | none => exact modeBody_sound hc hr hn hk hp ha' hv
              | some x => exact SoundM.pure ho
theorem preParseChildModes_sound {cfg : Config} (hc : AsciiPrefixes cfg) {root : Node}
    (hr : SoundTree root) {validator : Validator} (hv : ∀ x, SoundM (fun _ => True) (validator x)) :
    ∀ (ns : List Node) (parents : List Node) (args : List Token), (∀ n ∈ ns, n ∈ root.nodes) →
    (∀ p ∈ parents, p ∈ root.nodes) → (GoodArgs (Expands root) cfg args) →
    SoundM (GoodMode cfg root) (preParseChildModes cfg parents args validator ns)
  | [], parents, args, _, _, _ => by
    rw [preParseChildModes]; exact SoundM.pure fun _ _ h => by cases h
  | .mk k u h v p cs :: ns, parents, args, hns, hp, ha => by
    rw [preParseChildModes]
    have ih := preParseChildModes_sound hc hr hv ns parents args
      (fun n hn => hns n (List.mem_cons_of_mem _ hn)) hp ha
    split
    · rename_i hk
      refine SoundM.bind (preParseMode_sound hc hr hv _ parents args (hns _ List.mem_cons_self)
        (eq_of_beq hk) hp ha) ?_
      intro o ho
      cases o with
      | none => exact ih
      | some x => exact SoundM.pure ho
    · exact ih
end

/-! ## Running the targets -/

theorem callRouter_sound (n : Node) (vs : List Value) :
    SoundM (fun _ => True) (callRouter n vs) := fun _ => Sound.ok trivial

theorem callIfRouter_sound (n : Node) (vs : List Value) :
    SoundM (fun _ => True) (callIfRouter n vs) := by
  unfold callIfRouter
  split
  · exact callRouter_sound _ _
  · exact SoundM.pure trivial

theorem runValidation_sound (n : Node) (v : Value) (ps : List Policy)
    (hps : ∀ t f, Policy.validation t f ∈ ps → ∀ v, f v ≠ .ub ∧ f v ≠ .foreign) :
    SoundM (fun _ => True) (runValidation n v ps) := by
  induction ps with
  | nil => exact SoundM.pure trivial
  | cons p ps ih =>
    have ih := ih fun t f h => hps t f (List.mem_cons_of_mem _ h)
    cases p <;> simp only [runValidation] <;> try exact ih
    · split
      · exact SoundM.throw _
      · split
        · exact SoundM.throw _
        · exact ih
    · rename_i t f
      have := hps t f List.mem_cons_self v
      exact SoundM.bind (SoundM.lift (P := fun _ => True) ⟨this.1, this.2, fun _ _ => trivial⟩)
        fun _ _ => ih

theorem behaves_sound {f : Bytes → Out Scalar} (h : Behaves f) (s : Bytes) :
    Sound (fun _ => True) (f s) := ⟨(h s).1, (h s).2, fun _ _ => trivial⟩

theorem parseLeaf_sound {l : Leaf} (hl : Runnable l.node = true) (hn : SoundNode l.node) :
    SoundM (fun _ => True) (parseLeaf l) := by
  have hv : TakesValues l.node = true → SoundM (fun _ => True) (do
      let v ← M.lift (parseValue l.node l.tokens)
      runValidation l.node v l.node.policies
      callIfRouter l.node [v]
      Pure.pure (some v) : M (Option Value)) := by
    intro ht
    have htok : ∀ s, Sound (fun _ => True) (parseToken l.node s) := by
      intro s
      unfold parseToken
      split
      · rename_i f hf
        rw [List.findSome?_eq_some_iff] at hf
        obtain ⟨l1, p, l2, hl, hp', -⟩ := hf
        cases p <;> simp at hp'
        subst hp'
        exact behaves_sound (hn.customParser _ (by rw [hl]; simp)) s
      · exact behaves_sound (hn.parser ht) s
    have htoks : ∀ ts, Sound (fun _ => True) (parseTokens l.node ts) := by
      intro ts
      induction ts with
      | nil => exact Sound.ok trivial
      | cons t ts ih =>
        rw [parseTokens]
        exact (htok _).bind fun _ _ => ih.bind fun _ _ => Sound.ok trivial
    have hval : Sound (fun _ => True) (parseValue l.node l.tokens) := by
      unfold parseValue
      split
      · exact (htoks _).bind fun _ _ => Sound.ok trivial
      · split
        · exact Sound.ok trivial
        · exact (htok _).bind fun _ _ => Sound.ok trivial
    exact SoundM.bind (SoundM.lift hval) fun v _ => SoundM.bind (runValidation_sound _ _ _
        hn.validation)
      fun _ _ => SoundM.bind (callIfRouter_sound _ _) fun _ _ => SoundM.pure trivial
  unfold parseLeaf
  split
  · exact SoundM.bind (callIfRouter_sound _ _) fun _ _ => SoundM.pure trivial
  · exact SoundM.pure trivial
  · rename_i h; exact hv (by simp [TakesValues, h])
  · rename_i h; exact hv (by simp [TakesValues, h])
  · rename_i h; exact hv (by simp [TakesValues, h])
  · rename_i h; exact hv (by simp [TakesValues, h])
  · have hh : Sound (fun _ => True) (helpOutput l.node l.tokens) := by
      unfold helpOutput
      split
      · rename_i f hf
        rw [List.findSome?_eq_some_iff] at hf
        obtain ⟨l1, p, l2, hl, hp', -⟩ := hf
        cases p <;> simp at hp'
        subst hp'
        rename_i f
        have := hn.help f (by rw [hl]; simp) l.tokens
        exact ⟨this.1, this.2, fun _ _ => trivial⟩
      · exact Sound.ok trivial
    exact SoundM.bind (SoundM.lift hh) fun _ _ => SoundM.bind (callRouter_sound _ _)
      fun _ _ => SoundM.pure trivial
  · unfold Runnable at hl
    split at hl
    all_goals simp_all

theorem processResult_sound (rs : List (Option Value)) (i : Nat) (c n : Node) (v : Value) :
    SoundM (fun _ => True) (processResult rs i c n v) := by
  unfold processResult
  split
  · exact SoundM.pure trivial
  · simp only
    split
    · exact SoundM.pure trivial
    · split
      · exact SoundM.throw _
      · exact SoundM.pure trivial

theorem processSubs_sound {root : Node} (hr : ∀ m ∈ root.nodes, SoundNode m) (children : List Node)
    (ls : List Leaf) (rs : List (Option Value)) (hp : ∀ l ∈ ls, GoodLeaf root l) :
    SoundM (fun _ => True) (processSubs children ls rs) := by
  induction ls generalizing rs with
  | nil => exact SoundM.pure trivial
  | cons l ls ih =>
    have ih' := fun rs => ih rs fun l hl => hp l (List.mem_cons_of_mem _ hl)
    obtain ⟨h1, h2⟩ := hp l List.mem_cons_self
    rw [processSubs]
    refine SoundM.bind (parseLeaf_sound h1 (hr _ h2)) ?_
    intro o _
    cases o with
    | none => exact ih' _
    | some v =>
      simp only
      split
      · exact ih' _
      · exact SoundM.bind (processResult_sound _ _ _ _ _) fun _ _ => ih' _

theorem runMissing_sound (n : Node) (ps : List Policy) (r : Option Value) :
    SoundM (fun _ => True) (runMissing n ps r) := by
  induction ps generalizing r with
  | nil => exact SoundM.pure trivial
  | cons p ps ih =>
    cases p <;> simp only [runMissing] <;> try exact ih _
    · exact SoundM.throw _
    · split
      · exact SoundM.throw _
      · exact ih _

/-- Every child with a result value has one. -/
def Filled : List Node → List (Option Value) → Prop
  | c :: cs, r :: rs => (c.hasNoResult = true ∨ r.isSome = true) ∧ Filled cs rs
  | _, _ => True

theorem fillMissing_sound (cs : List Node) (rs : List (Option Value)) (hv : ∀ c ∈ cs, SoundNode c) :
    SoundM (Filled cs) (fillMissing cs rs) := by
  induction cs generalizing rs with
  | nil => cases rs <;> exact SoundM.pure trivial
  | cons c cs ih =>
    cases rs with
    | nil => exact SoundM.pure trivial
    | cons r rs =>
      have ih := fun rs => ih rs fun c h => hv c (List.mem_cons_of_mem _ h)
      rw [fillMissing]
      refine SoundM.bind (P := fun r => c.hasNoResult = true ∨ r.isSome = true) ?_
        fun r hr => SoundM.bind (ih _) fun rs hrs => SoundM.pure ⟨hr, hrs⟩
      unfold fillResult
      split
      · rename_i h; exact SoundM.pure (.inl h)
      · split
        · exact SoundM.pure (.inr rfl)
        · refine SoundM.bind (P := fun _ => True) ?_ fun _ _ => SoundM.pure (.inr rfl)
          unfold processMissing
          exact SoundM.bind (runMissing_sound _ _ _) fun _ _ =>
            SoundM.bind (runValidation_sound _ _ _ (hv c List.mem_cons_self).validation) fun _ _ => SoundM.pure trivial

theorem stages_sound (cs : List Node) (rs : List (Option Value)) (hv : ∀ c ∈ cs, SoundNode c)
    (h : Filled cs rs) :
    SoundM (fun _ => True) (multiStageValidation cs rs) := by
  induction cs generalizing rs with
  | nil => cases rs <;> exact SoundM.pure trivial
  | cons c cs ih =>
    cases rs with
    | nil => exact SoundM.pure trivial
    | cons r rs =>
      have ih := fun rs => ih rs fun c h => hv c (List.mem_cons_of_mem _ h)
      rw [multiStageValidation]
      refine SoundM.bind (P := fun _ => True) ?_ fun _ _ => ih _ h.2
      unfold validateStages
      split
      · rename_i hc
        split
        · exact runValidation_sound _ _ _ (hv c List.mem_cons_self).validation
        · rcases h.1 with h1 | h1
          · simp [h1] at hc
          · cases h1
      · exact SoundM.pure trivial

theorem parseMode_sound {root : Node} (hr : ∀ m ∈ root.nodes, SoundNode m) (mode : Node)
    (hm : mode ∈ root.nodes) (ls : List Leaf) (hp : ∀ l ∈ ls, GoodLeaf root l) :
    SoundM (fun _ => True) (parseMode mode ls) := by
  have hv : ∀ c ∈ mode.children, SoundNode c := fun c h =>
    hr c (nodes_trans _ _ hm _ (child_mem_nodes h _ (self_mem_nodes c)))
  unfold parseMode
  refine SoundM.bind (processSubs_sound hr _ _ _ hp) fun _ _ =>
    SoundM.bind (fillMissing_sound _ _ hv) fun _ h =>
    SoundM.bind (stages_sound _ _ hv h) fun _ _ => ?_
  split
  · exact callRouter_sound _ _
  · exact SoundM.throw _

theorem rootLoop_sound {cfg : Config} (hc : AsciiPrefixes cfg) {root : Node} (hr : SoundTree root)
    {args : List Token} (ha : GoodArgs (Expands root) cfg args) (cs : List Node)
    (hcs : ∀ c ∈ cs, c ∈ root.children) :
    SoundM (fun _ => True) (rootLoop cfg root args cs) := by
  induction cs with
  | nil => exact SoundM.pure trivial
  | cons c cs ih =>
    have hcm := hcs c List.mem_cons_self
    have hroot := self_mem_nodes root
    have hpar : ∀ p ∈ [root], p ∈ root.nodes := by simp [hroot]
    have hcn : c ∈ root.nodes := child_mem_nodes hcm _ (self_mem_nodes _)
    have htrue : ∀ x, SoundM (fun _ => True) (alwaysTrue x) := fun _ => SoundM.pure trivial
    rw [rootLoop]
    refine SoundM.bind (P := fun r => GoodMode cfg root r ∨
      GoodMatch cfg root (fun x => x ∈ root.nodes ∧ Runnable x = true) r) ?_ ?_
    · unfold offerTo
      split
      · rename_i hk
        exact (preParseMode_sound hc hr htrue c _ _ hcn (eq_of_beq hk) hpar ha).imp
          fun _ h => .inl h
      · rename_i hk
        have hk : c.kind ≠ .mode := by simpa using hk
        refine (preParse_sound hc hr.node hpar ha c _ ⟨nodes_trans _ _ hcn,
          nonMode_nodes hr.kinds c hcn hk (hr.kinds _ hroot c hcm).1, ?_⟩ htrue).imp
          fun _ h => .inr h
        rintro m hm (h1 | h1)
        · exact absurd h1 (hr.inModes c hcm hk m hm).1
        · exact absurd h1 (hr.inModes c hcm hk m hm).2
    · intro o ho
      cases o with
      | none => exact ih fun x hx => hcs x (List.mem_cons_of_mem _ hx)
      | some x =>
        obtain ⟨t, rest⟩ := x
        simp only
        split
        · exact SoundM.throw _
        · refine SoundM.bind (P := fun _ => True) ?_ fun _ _ => SoundM.pure trivial
          unfold runTarget
          rcases ho with ho | ho
          · obtain ⟨h1, h2, h3, -⟩ := ho _ _ rfl
            simp only [h2, beq_self_eq_true, if_true]
            exact parseMode_sound hr.node _ h1 _ h3
          · obtain ⟨⟨h1, h2⟩, h3, -⟩ := ho _ _ rfl
            split
            · exact parseMode_sound hr.node _ h1 _ h3
            · exact SoundM.bind (parseLeaf_sound h2 (hr.node _ h1)) fun _ _ => SoundM.pure trivial

theorem parseArgs_sound {cfg : Config} (hc : AsciiPrefixes cfg) {root : Node} (hr : SoundTree root)
    {args : List Bytes} (ha : ∀ s ∈ args, Text s)
    (hl : Expands root → args.getLast? ≠ some cfg.shortPrefix) :
    SoundM (fun _ => True) (parseArgs cfg root args) := by
  have hg : GoodArgs (Expands root) cfg (args.map (Token.mk .none)) := by
    refine ⟨fun t ht => ?_, fun t ht => ?_⟩
    · obtain ⟨s, hs, rfl⟩ := List.mem_map.1 ht
      exact ha s hs
    · rw [List.getLast?_map, Option.map_eq_some_iff] at ht
      obtain ⟨s, hs, rfl⟩ := ht
      exact fun hE => ⟨fun _ h => hl hE (by rw [hs]; exact congrArg some h), by simp⟩
  unfold parseArgs rootParse
  refine SoundM.bind (rootLoop_sound hc hr hg _ fun _ h => h) ?_
  intro done _
  split
  · exact SoundM.pure trivial
  · simp only
    split
    · exact SoundM.throw _
    · refine SoundM.lift (unknownArgument_sound hc hr.node ?_)
      cases hx : args.map (Token.mk .none) with
      | nil => exact text_nil
      | cons t ts => rw [hx] at hg; exact hg.1 t List.mem_cons_self

end ArgRouter

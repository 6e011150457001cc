import Verif.Props.Grapheme
import Verif.Props.Leaf
import Verif.Lemmas.PreParse

/-!
# How much is left of the command line: the measure behind termination
-/

namespace ArgRouter

open Props Spec

@[simp] theorem totalBytes_nil : totalBytes [] = 0 := rfl
@[simp] theorem totalBytes_cons (t : Token) (l : List Token) :
    totalBytes (t :: l) = t.name.length + totalBytes l := by simp [totalBytes]
@[simp] theorem totalBytes_append (l m : List Token) :
    totalBytes (l ++ m) = totalBytes l + totalBytes m := by simp [totalBytes]

theorem totalBytes_take_drop (l : List Token) (n : Nat) :
    totalBytes (l.take n) + totalBytes (l.drop n) = totalBytes l := by
  rw [← totalBytes_append, List.take_append_drop]

theorem totalBytes_sublist {l m : List Token} (h : l.Sublist m) : totalBytes l ≤ totalBytes m := by
  induction h with
  | slnil => exact Nat.le_refl _
  | cons a _ ih => rw [totalBytes_cons]; omega
  | cons_cons a _ ih => rw [totalBytes_cons, totalBytes_cons]; omega

/-- Bytes left in the adapter. -/
def Adapter.bytes (a : Adapter) : Nat := totalBytes (tokenSeq a)

theorem bytes_transfer (a : Adapter) (it : AIter) : (a.transfer it).bytes = a.bytes := by
  simp only [Adapter.bytes, (C04_transfer_any a it).1]

theorem getToken_length (cfg : Config) (n : Node) (s : Bytes) :
    (n.getToken cfg s).name.length ≤ s.length := by
  simp only [Node.getToken, getTokenTypeNode]
  split
  · simp
  · split
    · simp
    · simp

theorem valueSeparator_bytes {cfg : Config} {owner : Node} {sep : Bytes} {a a' : Adapter}
    {r : PreResult} (h : valueSeparatorPhase cfg owner sep a = .ok (r, a')) :
    a'.bytes ≤ a.bytes ∧ r ≠ .ok .skipNodeButUseSubTargets := by
  unfold valueSeparatorPhase at h
  split at h
  · simp only [Out.ok.injEq, Prod.mk.injEq] at h
    obtain ⟨rfl, rfl⟩ := h
    exact ⟨Nat.le_refl _, by simp⟩
  · rename_i hne
    rw [(C03_size a).2] at hne
    simp only [Out.bind_eq_ok] at h
    obtain ⟨t, ht, h⟩ := h
    have hb : Adapter.begin_ = at_ 0 := by rfl
    rw [hb, C03_read] at ht
    cases hA : tokenSeq a with
    | nil => exact absurd hA hne
    | cons x xs =>
      rw [hA] at ht
      simp only [List.getElem?_cons_zero, Out.ok.injEq] at ht
      subst ht
      split at h
      · generalize (if x.pre == .none then getTokenType cfg x.name else x) = tt at h
        split at h
        · simp only [Out.pure_eq, Out.ok.injEq, Prod.mk.injEq] at h
          obtain ⟨rfl, rfl⟩ := h
          exact ⟨Nat.le_refl _, by simp⟩
        · simp only [Out.pure_eq, Out.ok.injEq, Prod.mk.injEq] at h
          obtain ⟨rfl, rfl⟩ := h
          exact ⟨Nat.le_refl _, by simp⟩
      · rename_i idx hidx
        split at h
        · rename_i hlen
          split at h
          · simp only [Out.pure_eq, Out.ok.injEq, Prod.mk.injEq] at h
            obtain ⟨rfl, rfl⟩ := h
            exact ⟨Nat.le_refl _, by simp⟩
          · simp only [Out.bind_eq_ok, Prod.exists, Out.pure_eq, Out.ok.injEq, Prod.mk.injEq] at h
            obtain ⟨a1, it1, h1, a2, h2, rfl, rfl⟩ := h
            obtain ⟨b1, e1, e2, -⟩ := C03_insert a 1
              ⟨.none, x.name.drop (idx + sep.length)⟩ (by rw [hA]; simp)
            have hb1 : Adapter.begin_.add 1 = at_ 1 := by rfl
            rw [hb1, e1] at h1
            simp only [Out.ok.injEq, Prod.mk.injEq] at h1
            obtain ⟨rfl, -⟩ := h1
            rw [hA] at e2
            simp only [List.take_succ_cons, List.take_zero, List.drop_succ_cons, List.drop_zero,
              List.singleton_append] at e2
            obtain ⟨b2, f1, f2⟩ := C03_set b1 0 ⟨x.pre, x.name.take idx⟩ (by rw [e2]; simp)
            rw [hb, f1] at h2
            simp only [Out.ok.injEq] at h2
            subst h2
            refine ⟨?_, by simp⟩
            simp only [Adapter.bytes, f2, e2, hA, List.set_cons_zero, totalBytes_cons,
              List.length_take, List.length_drop]
            omega
        · cases h

theorem shortForm_bytes {cfg : Config} {owner : Node} {a a' : Adapter}
    {r : PreResult} (h : shortFormExpanderPhase cfg owner a = .ok (r, a')) :
    a'.bytes ≤ a.bytes ∧ r = .ok .validNode := by
  unfold shortFormExpanderPhase at h
  split at h
  · simp only [Out.ok.injEq, Prod.mk.injEq] at h
    obtain ⟨rfl, rfl⟩ := h
    exact ⟨Nat.le_refl _, rfl⟩
  · rename_i hne
    rw [(C03_size a).2] at hne
    simp only [Out.bind_eq_ok] at h
    obtain ⟨t, ht, h⟩ := h
    have hb : Adapter.begin_ = at_ 0 := by rfl
    rw [hb, C03_read] at ht
    cases hA : tokenSeq a with
    | nil => exact absurd hA hne
    | cons x xs =>
      rw [hA] at ht
      simp only [List.getElem?_cons_zero, Out.ok.injEq] at ht
      subst ht
      have htt : (if x.pre == .none then owner.getToken cfg x.name else x).name.length ≤
          x.name.length := by
        split
        · exact getToken_length _ _ _
        · exact Nat.le_refl _
      generalize (if x.pre == .none then owner.getToken cfg x.name else x) = tt at h htt
      split at h
      · simp only [Out.pure_eq, Out.ok.injEq, Prod.mk.injEq] at h
        obtain ⟨rfl, rfl⟩ := h
        exact ⟨Nat.le_refl _, rfl⟩
      · split at h
        · simp only [Out.pure_eq, Out.ok.injEq, Prod.mk.injEq] at h
          obtain ⟨rfl, rfl⟩ := h
          exact ⟨Nat.le_refl _, rfl⟩
        · split at h
          · cases h
          · simp only [Out.bind_eq_ok, Out.pure_eq, Out.ok.injEq, Prod.mk.injEq] at h
            obtain ⟨gcs, hg, a2, h2, rfl, rfl⟩ := h
            refine ⟨?_, rfl⟩
            obtain ⟨hflat, -⟩ := (C41_any_bytes tt.name).2 gcs hg
            obtain ⟨t1, t2, t3⟩ := C04_transfer a 0 (by rw [size_eq, hA]; simp)
            have hP : ∃ P', (a.transfer Adapter.begin_).processed = x :: P' ∧
                x :: xs = x :: (P' ++ (a.transfer Adapter.begin_).unprocessed) := by
              rw [hA] at t2
              cases hpp : (a.transfer (at_ 0)).processed with
              | nil =>
                rw [hpp] at t2
                have := congrArg List.length t2
                simp only [List.length_nil, List.length_take, List.length_cons] at this
                omega
              | cons y ys =>
                have : tokenSeq (a.transfer (at_ 0)) = x :: xs := by rw [t1, hA]
                simp only [tokenSeq, hpp, List.cons_append, List.cons.injEq] at this
                rw [hb, hpp, ← this.2, this.1]
                exact ⟨ys, rfl, rfl⟩
            obtain ⟨P', hP1, hP2⟩ := hP
            have hseq : tokenSeq ⟨(a.transfer Adapter.begin_).processed,
                gcs.tail.map (Token.mk .short) ++ (a.transfer Adapter.begin_).unprocessed⟩ =
                x :: (P' ++ (gcs.tail.map (Token.mk .short) ++
                  (a.transfer Adapter.begin_).unprocessed)) := by
              simp only [tokenSeq, hP1, List.cons_append]
            obtain ⟨b2, f1, f2⟩ := C03_set ⟨(a.transfer Adapter.begin_).processed,
                gcs.tail.map (Token.mk .short) ++ (a.transfer Adapter.begin_).unprocessed⟩ 0
                ⟨.short, gcs.headD []⟩ (by rw [hseq]; simp)
            rw [← hb] at f1
            rw [f1] at h2
            simp only [Out.ok.injEq] at h2
            subst h2
            have hgl : (gcs.headD []).length + totalBytes (gcs.tail.map (Token.mk .short)) ≤
                tt.name.length := by
              rw [← hflat]
              cases gcs with
              | nil => simp
              | cons g gs =>
                simp only [List.headD_cons, List.tail_cons, List.flatten_cons, List.length_append]
                have : totalBytes (gs.map (Token.mk .short)) = gs.flatten.length := by
                  clear hg hflat f1 f2 hseq
                  induction gs with
                  | nil => rfl
                  | cons y ys ih => simp only [List.map_cons, totalBytes_cons, ih,
                      List.flatten_cons, List.length_append]
                omega
            simp only [Adapter.bytes, f2, hseq, hA, List.set_cons_zero, totalBytes_cons]
            have h3 : totalBytes xs = totalBytes P' +
                totalBytes (a.transfer Adapter.begin_).unprocessed := by
              simp only [List.cons.injEq, true_and] at hP2
              rw [hP2, totalBytes_append]
            rw [totalBytes_append, totalBytes_append, h3]
            omega

theorem marker_bytes {owner : Node} {m : Bytes} {a a' : Adapter}
    {r : PreResult} (h : tokenEndMarkerPhase owner m a = .ok (r, a')) :
    a'.bytes ≤ a.bytes ∧ r = .ok .validNode := by
  simp only [tokenEndMarkerPhase, Out.bind_eq_ok, Prod.exists, Out.pure_eq, Out.ok.injEq,
    Prod.mk.injEq] at h
  obtain ⟨it, -, a1, it1, h1, rfl, rfl⟩ := h
  refine ⟨?_, rfl⟩
  rw [← bytes_transfer a it]
  generalize a.transfer it = c at h1
  unfold Adapter.erase at h1
  split at h1
  · simp only [Out.ok.injEq, Prod.mk.injEq] at h1
    rw [h1.1]; exact Nat.le_refl _
  · split at h1
    · cases h1
    · split at h1
      · simp only [Out.ok.injEq, Prod.mk.injEq] at h1
        rw [← h1.1]
        exact totalBytes_sublist (List.Sublist.append (List.eraseIdx_sublist _ _)
          (List.Sublist.refl _))
      · simp only [Out.ok.injEq, Prod.mk.injEq] at h1
        rw [← h1.1]
        exact totalBytes_sublist (List.Sublist.append (List.Sublist.refl _)
          (List.eraseIdx_sublist _ _))

/-- All names of the node are non-empty. -/
def NonEmptyNames (n : Node) : Prop :=
  n.longName ≠ some [] ∧ n.shortName ≠ some [] ∧ n.noneName ≠ some []

theorem label_nonempty {cfg : Config} {n : Node} {t : Token} (hn : NonEmptyNames n)
    (h : n.matchToken (if t.pre == .none then n.getToken cfg t.name else t) = true) :
    0 < t.name.length := by
  have h1 : ∀ x : Token, n.matchToken x = true → 0 < x.name.length := by
    intro x hx
    refine List.length_pos_iff.2 ?_
    intro he
    simp only [Node.matchToken, Bool.or_eq_true, Bool.and_eq_true, beq_iff_eq, he] at hx
    rcases hx with (⟨-, hx⟩ | ⟨-, hx⟩) | ⟨-, hx⟩
    · exact hn.1 hx
    · exact hn.2.1 hx
    · exact hn.2.2 hx
  have h2 := h1 _ h
  split at h2
  · exact Nat.lt_of_lt_of_le h2 (getToken_length _ _ _)
  · exact h2

theorem alias_bytes {cfg : Config} {owner : Node} {parents : List Node} {refs : List NameRef}
    {a a' : Adapter} {subs subs' : List Leaf} {r : PreResult}
    (h : aliasPhase cfg owner parents refs a subs = .ok (r, a', subs')) :
    a'.bytes ≤ a.bytes ∧
    (NonEmptyNames owner → r = .ok .skipNodeButUseSubTargets → a'.bytes < a.bytes) := by
  unfold aliasPhase at h
  split at h
  · rename_i count _ mode _ _
    split at h
    · simp only [Out.ok.injEq, Prod.mk.injEq] at h
      obtain ⟨rfl, rfl, rfl⟩ := h
      exact ⟨Nat.le_refl _, by simp⟩
    · rename_i hsz
      simp only [Out.bind_eq_ok] at h
      obtain ⟨label, hlab, h⟩ := h
      have hb : Adapter.begin_ = at_ 0 := by rfl
      rw [hb, C03_read] at hlab
      have hlen := label_nonempty (cfg := cfg) (n := owner) (t := label)
      generalize (if label.pre == .none then owner.getToken cfg label.name else label) = tt
        at h hlen
      split at h
      · simp only [Out.pure_eq, Out.ok.injEq, Prod.mk.injEq] at h
        obtain ⟨rfl, rfl, rfl⟩ := h
        exact ⟨Nat.le_refl _, by simp⟩
      · rename_i hmatch
        simp only [Out.pure_eq, Out.ok.injEq, Prod.mk.injEq] at h
        obtain ⟨rfl, rfl, rfl⟩ := h
        have hlt : count < a.size := by omega
        obtain ⟨t1, t2, t3⟩ := C04_transfer a count hlt
        have hcb : Adapter.begin_.add count = at_ count := by rfl
        rw [hcb]
        have hle : totalBytes ((a.transfer (at_ count)).processed.drop (count + 1)) +
            totalBytes (a.transfer (at_ count)).unprocessed ≤ a.bytes := by
          have := totalBytes_take_drop (a.transfer (at_ count)).processed (count + 1)
          have h2 : a.bytes = totalBytes (a.transfer (at_ count)).processed +
            totalBytes (a.transfer (at_ count)).unprocessed := by
            rw [← totalBytes_append]
            show totalBytes (tokenSeq a) = totalBytes (tokenSeq (a.transfer (at_ count)))
            rw [t1]
          omega
        refine ⟨by simpa only [Adapter.bytes, tokenSeq, totalBytes_append] using hle, ?_⟩
        intro hn _
        have hpos := hlen hn (by simpa using hmatch)
        simp only [Adapter.bytes, tokenSeq, totalBytes_append]
        cases hA : tokenSeq a with
        | nil => rw [hA] at hlab; simp at hlab
        | cons x xs =>
          rw [hA] at hlab
          simp only [List.getElem?_cons_zero, Out.ok.injEq] at hlab
          subst hlab
          have hmax : ∃ k, max (count + 1) a.processed.length = k + 1 :=
            ⟨max (count + 1) a.processed.length - 1, by omega⟩
          obtain ⟨k, hk⟩ := hmax
          rw [hA, hk, List.take_succ_cons] at t2
          have h3 := totalBytes_take_drop (a.transfer (at_ count)).processed (count + 1)
          rw [t2, List.take_succ_cons, totalBytes_cons] at h3
          have h4 : totalBytes (a.processed ++ a.unprocessed) =
            totalBytes (a.transfer (at_ count)).processed +
            totalBytes (a.transfer (at_ count)).unprocessed := by
            rw [← totalBytes_append]
            show totalBytes (tokenSeq a) = totalBytes (tokenSeq (a.transfer (at_ count)))
            rw [t1]
          rw [t2, totalBytes_cons] at h4
          rw [totalBytes_append] at h4
          rw [t2]
          simp only [totalBytes_cons] at h3
          omega
  · cases h

theorem phase_bytes {cfg : Config} {n : Node} {parents : List Node} {processed : Option Target}
    {p : Policy} {a a' : Adapter} {subs subs' : List Leaf} {r : PreResult}
    (h : p.phase cfg n parents processed a subs = .ok (r, a', subs')) :
    a'.bytes ≤ a.bytes ∧
    (NonEmptyNames n → r = .ok .skipNodeButUseSubTargets → a'.bytes < a.bytes) := by
  by_cases hp : Rewrites p = false
  · obtain ⟨h1, -, h3⟩ := phase_keeps hp h
    refine ⟨Nat.le_of_eq (by simp only [Adapter.bytes, h1]), fun _ hr => absurd hr h3⟩
  · cases p <;> simp only [Rewrites, Bool.true_eq_false, not_true_eq_false, not_false_eq_true] at hp
    case valueSeparator s =>
      simp only [Policy.phase, Out.bind_eq_ok, Prod.exists, Out.pure_eq, Out.ok.injEq,
        Prod.mk.injEq] at h
      obtain ⟨_, _, h, rfl, rfl, -⟩ := h
      exact ⟨(valueSeparator_bytes h).1, fun _ hr => absurd hr (valueSeparator_bytes h).2⟩
    case shortFormExpander =>
      simp only [Policy.phase, Out.bind_eq_ok, Prod.exists, Out.pure_eq, Out.ok.injEq,
        Prod.mk.injEq] at h
      obtain ⟨_, _, h, rfl, rfl, -⟩ := h
      exact ⟨(shortForm_bytes h).1, fun _ hr => by rw [(shortForm_bytes h).2] at hr; simp at hr⟩
    case tokenEndMarker =>
      simp only [Policy.phase, Out.bind_eq_ok, Prod.exists, Out.pure_eq, Out.ok.injEq,
        Prod.mk.injEq] at h
      obtain ⟨_, _, h, rfl, rfl, -⟩ := h
      exact ⟨(marker_bytes h).1, fun _ hr => by rw [(marker_bytes h).2] at hr; simp at hr⟩
    case alias refs => exact alias_bytes h

theorem runPhases_bytes {cfg : Config} {n : Node} {parents : List Node}
    {processed : Option Target} (ps : List Policy)
    {m r : PreResult} {a a' : Adapter} {subs subs' : List Leaf}
    (h : runPhases cfg n parents processed ps m a subs = .ok (r, a', subs')) :
    a'.bytes ≤ a.bytes ∧ (NonEmptyNames n → r = .ok .skipNodeButUseSubTargets →
      m ≠ .ok .skipNodeButUseSubTargets → a'.bytes < a.bytes) := by
  induction ps generalizing m a subs with
  | nil =>
    simp only [runPhases, Out.ok.injEq, Prod.mk.injEq] at h
    obtain ⟨rfl, rfl, rfl⟩ := h
    exact ⟨Nat.le_refl _, fun _ h1 h2 => absurd h1 h2⟩
  | cons p ps ih =>
    simp only [runPhases] at h
    split at h
    · match m with
      | .error e =>
        simp only [Out.ok.injEq, Prod.mk.injEq] at h
        obtain ⟨rfl, rfl, rfl⟩ := h
        exact ⟨Nat.le_refl _, fun _ h1 h2 => absurd h1 h2⟩
      | .ok .skipNode =>
        simp only [Out.ok.injEq, Prod.mk.injEq] at h
        obtain ⟨rfl, rfl, rfl⟩ := h
        exact ⟨Nat.le_refl _, fun _ h1 h2 => absurd h1 h2⟩
      | .ok .validNode =>
        simp only [Out.bind_eq_ok, Prod.exists] at h
        obtain ⟨m1, a1, s1, h1, h2⟩ := h
        obtain ⟨e1, e2⟩ := phase_bytes h1
        obtain ⟨f1, f2⟩ := ih h2
        refine ⟨Nat.le_trans f1 e1, fun hn hr _ => ?_⟩
        by_cases hm : m1 = .ok .skipNodeButUseSubTargets
        · exact Nat.lt_of_le_of_lt f1 (e2 hn hm)
        · exact Nat.lt_of_lt_of_le (f2 hn hr hm) e1
      | .ok .skipNodeButUseSubTargets =>
        simp only [Out.bind_eq_ok, Prod.exists] at h
        obtain ⟨m1, a1, s1, h1, h2⟩ := h
        obtain ⟨e1, e2⟩ := phase_bytes h1
        obtain ⟨f1, f2⟩ := ih h2
        exact ⟨Nat.le_trans f1 e1, fun _ _ hm => absurd rfl hm⟩
    · exact ih h

/-- A match never leaves more bytes than there were; a match of a named node leaves fewer. -/
theorem leaf_bytes {cfg : Config} {n : Node} {parents : List Node} {args : List Token}
    {processed : Option Target} {validator : Validator} {s s' : St} {t : Target}
    {rest : List Token}
    (h : leafPreParse cfg n parents args processed validator s = (.ok (some (t, rest)), s')) :
    totalBytes rest ≤ totalBytes args ∧
    (n.isNamed = true → NonEmptyNames n → totalBytes rest < totalBytes args) := by
  simp only [leafPreParse, M.bind_eq_ok, M.lift_apply, Prod.exists, Prod.mk.injEq] at h
  obtain ⟨m, a, subs, s1, ⟨h1, rfl⟩, h2⟩ := h
  obtain ⟨b1, b2⟩ := runPhases_bytes _ h1
  have hargs : Adapter.bytes ⟨[], args⟩ = totalBytes args := by simp [Adapter.bytes, tokenSeq]
  rw [hargs] at b1 b2
  cases hc : checkLabel cfg n m a with
  | none => rw [hc] at h2; simp at h2
  | some a' =>
    rw [hc] at h2
    simp only [M.bind_eq_ok] at h2
    obtain ⟨ok, s2, h3', h3⟩ := h2
    cases ok
    · simp at h3
    · cases m with
      | error e => simp at h3
      | ok act =>
        simp only [Bool.not_true, Bool.false_eq_true, if_false, M.pure_apply, Prod.mk.injEq,
          Out.ok.injEq, Option.some.injEq] at h3
        obtain ⟨⟨-, rfl⟩, -⟩ := h3
        have hab : totalBytes a.unprocessed ≤ a.bytes := by
          simp only [Adapter.bytes, tokenSeq, totalBytes_append]; omega
        cases act with
        | skipNode => simp [checkLabel] at hc
        | skipNodeButUseSubTargets =>
          simp only [checkLabel, Option.some.injEq] at hc
          subst hc
          exact ⟨Nat.le_trans hab b1, fun _ hn => Nat.lt_of_le_of_lt hab (b2 hn rfl (by simp))⟩
        | validNode =>
          by_cases hn : n.isNamed = true
          · rw [checkLabel_named hn (by simp) (by simp)] at hc
            cases hA : tokenSeq a with
            | nil => rw [hA] at hc; simp at hc
            | cons x xs =>
              rw [hA] at hc
              simp only at hc
              by_cases hl : labelTest cfg n x = true
              · rw [if_pos hl] at hc
                simp only [Option.some.injEq] at hc
                subst hc
                simp only [List.tail_cons]
                have hsub : totalBytes (xs.drop (a.processed.length - 1)) ≤ totalBytes xs :=
                  totalBytes_sublist (List.drop_sublist _ _)
                simp only [Adapter.bytes, hA, totalBytes_cons] at b1
                refine ⟨by omega, fun _ hne => ?_⟩
                have := label_nonempty (cfg := cfg) (n := n) (t := x) hne hl
                omega
              · rw [if_neg hl] at hc; cases hc
          · have hn' : n.isNamed = false := by simpa using hn
            rw [checkLabel_unnamed hn' (by simp)] at hc
            simp only [Option.some.injEq] at hc
            subst hc
            exact ⟨Nat.le_trans hab b1, fun h => absurd h hn⟩

/-! ## No divergence -/

theorem findFrom_ne_diverge (a : Adapter) (p : Token → Bool) (fuel : Nat) (it : AIter) :
    a.findFrom p fuel it ≠ .diverge := by
  induction fuel generalizing it with
  | zero => simp [Adapter.findFrom]
  | succ fuel ih =>
    unfold Adapter.findFrom
    split
    · simp
    · have : a.deref it ≠ .diverge := by
        unfold Adapter.deref
        split
        · split
          · split <;> simp
          · split
            · simp
            · split <;> simp
        · simp
      match hd : a.deref it with
      | .ok t =>
        simp only [Out.ok_bind]
        split
        · simp
        · exact ih _
      | .throw e => simp
      | .foreign => simp
      | .ub => simp
      | .diverge => exact absurd hd this

/-- Sequencing code that ends with code that ends. -/
theorem bind_ne_diverge {α β : Type} {o : Out α} {f : α → Out β} (h : o ≠ .diverge)
    (hf : ∀ a, f a ≠ .diverge) : (o >>= f) ≠ .diverge := by
  cases o with
  | ok a => exact hf a
  | diverge => exact absurd rfl h
  | _ => simp

theorem deref_ne_diverge (a : Adapter) (it : AIter) : a.deref it ≠ .diverge := by
  unfold Adapter.deref
  split
  · split
    · split <;> simp
    · split
      · simp
      · split <;> simp
  · simp

theorem set_ne_diverge (a : Adapter) (it : AIter) (t : Token) : a.set it t ≠ .diverge := by
  simp only [Adapter.set]; split <;> simp

theorem insert_ne_diverge (a : Adapter) (it : AIter) (t : Token) : a.insert it t ≠ .diverge := by
  simp only [Adapter.insert]
  generalize (if (a.transfer (it.add (-1))).isEnd it = true then
    ((a.transfer (it.add (-1))).processed.length : Int) else it.i) = x
  split <;> simp

theorem erase_ne_diverge (a : Adapter) (it : AIter) : a.erase it ≠ .diverge := by
  unfold Adapter.erase
  split
  · simp
  · split
    · simp
    · split <;> simp

theorem phase_ne_diverge (cfg : Config) (n : Node) (parents : List Node)
    (processed : Option Target) (p : Policy) (a : Adapter) (subs : List Leaf) :
    p.phase cfg n parents processed a subs ≠ .diverge := by
  cases p
  case valueSeparator s =>
    refine bind_ne_diverge ?_ fun x => by simp
    unfold valueSeparatorPhase
    split
    · simp
    · refine bind_ne_diverge (deref_ne_diverge _ _) fun t => ?_
      split
      · simp only
        generalize (if t.pre == .none then getTokenType cfg t.name else t) = tt
        split <;> simp
      · split
        · simp only
          split
          · simp
          · exact bind_ne_diverge (insert_ne_diverge _ _ _) fun x =>
              bind_ne_diverge (set_ne_diverge _ _ _) fun y => by simp
        · simp
  case shortFormExpander =>
    refine bind_ne_diverge ?_ fun x => by simp
    unfold shortFormExpanderPhase
    split
    · simp
    · refine bind_ne_diverge (deref_ne_diverge _ _) fun t => ?_
      simp only
      generalize (if t.pre == .none then n.getToken cfg t.name else t) = tt
      split
      · simp
      · split
        · simp
        · split
          · simp
          · exact bind_ne_diverge (C41_any_bytes _).1 fun x =>
              bind_ne_diverge (set_ne_diverge _ _ _) fun y => by simp
  case tokenEndMarker m =>
    refine bind_ne_diverge ?_ fun x => by simp
    unfold tokenEndMarkerPhase
    exact bind_ne_diverge (findFrom_ne_diverge _ _ _ _) fun x =>
      bind_ne_diverge (erase_ne_diverge _ _) fun y => by simp
  case alias refs =>
    simp only [Policy.phase, aliasPhase]
    split
    · split
      · simp
      · refine bind_ne_diverge (deref_ne_diverge _ _) fun t => ?_
        generalize (if t.pre == .none then n.getToken cfg t.name else t) = tt
        split <;> simp
    · simp
  case dependent refs =>
    refine bind_ne_diverge ?_ fun x => by simp
    unfold dependentPhase
    split
    · simp only
      split <;> simp
    · simp
  all_goals simp [Policy.phase]

theorem runPhases_ne_diverge (cfg : Config) (n : Node) (parents : List Node)
    (processed : Option Target) (ps : List Policy) (m : PreResult) (a : Adapter)
    (subs : List Leaf) : runPhases cfg n parents processed ps m a subs ≠ .diverge := by
  induction ps generalizing m a subs with
  | nil => simp [runPhases]
  | cons p ps ih =>
    simp only [runPhases]
    split
    · split
      · simp
      · simp
      · exact bind_ne_diverge (phase_ne_diverge _ _ _ _ _ _ _) fun x => ih _ _ _
    · exact ih _ _ _

/-- The code does not diverge, from any state. -/
def Ends {α : Type} (m : M α) : Prop := ∀ s, (m s).1 ≠ .diverge

namespace Ends

theorem pure {α : Type} (a : α) : Ends (Pure.pure a : M α) := fun s => by simp
theorem throw {α : Type} (e : Exc) : Ends (M.throw e : M α) := fun s => by simp
theorem lift {α : Type} {o : Out α} (h : o ≠ .diverge) : Ends (M.lift o) := fun _ => h

theorem bind {α β : Type} {m : M α} {f : α → M β} (hm : Ends m)
    (hf : ∀ a s s', m s = (.ok a, s') → (f a s').1 ≠ .diverge) : Ends (m >>= f) := by
  intro s
  rw [M.bind_apply]
  have := hm s
  match hx : m s with
  | (.ok a, s1) => exact hf a s s1 hx
  | (.throw e, s1) => simp
  | (.foreign, s1) => simp
  | (.ub, s1) => simp
  | (.diverge, s1) => rw [hx] at this; exact absurd rfl this

theorem bind' {α β : Type} {m : M α} {f : α → M β} (hm : Ends m) (hf : ∀ a, Ends (f a)) :
    Ends (m >>= f) := bind hm fun a _ s' _ => hf a s'

end Ends

theorem ends_leaf {cfg : Config} {n : Node} {parents : List Node} {args : List Token}
    {processed : Option Target} {validator : Validator} (hv : ∀ n, Ends (validator n)) :
    Ends (leafPreParse cfg n parents args processed validator) := by
  unfold leafPreParse
  refine Ends.bind' (Ends.lift (runPhases_ne_diverge _ _ _ _ _ _ _ _)) ?_
  rintro ⟨m, a, subs⟩
  simp only
  split
  · exact Ends.pure _
  · refine Ends.bind' (hv n) ?_
    intro ok
    split
    · exact Ends.pure _
    · split
      · exact Ends.throw _
      · exact Ends.pure _

theorem ends_oneOfValidator {o : Node} {inner : Validator} (hi : ∀ n, Ends (inner n)) (c : Node) :
    Ends (oneOfValidator o inner c) := by
  intro s
  show ((match s.lastTypeId o.uid with
      | some h =>
        if h ≠ c.hash then M.throw ⟨.one_of_selected_type_mismatch, [o.tokenType]⟩
        else inner c
      | none => do
        (fun s => (.ok (), { s with sel := (o.uid, c.hash) :: s.sel }) : M Unit)
        inner c : M Bool) s).1 ≠ _
  cases s.lastTypeId o.uid with
  | none => exact hi c _
  | some h =>
    simp only
    split
    · simp
    · exact hi c _

mutual
theorem ends_preParse (cfg : Config) (parents : List Node) (args : List Token)
    (processed : Option Target) : ∀ (n : Node) (validator : Validator),
    (∀ n, Ends (validator n)) → Ends (preParse cfg parents args processed n validator)
  | .mk k u h v p cs, validator, hv => by
    cases k
    case aliasGroup =>
      rw [preParse_aliasGroup]; exact ends_group cfg parents args processed cs validator hv
    case oneOf =>
      rw [preParse_oneOf]
      exact ends_oneOf cfg parents args processed cs _ (ends_oneOfValidator hv)
    all_goals
      rw [preParse_leaf _ _ _ _ _ _ (by rfl)]
      exact ends_leaf hv
theorem ends_group (cfg : Config) (parents : List Node) (args : List Token)
    (processed : Option Target) : ∀ (ns : List Node) (validator : Validator),
    (∀ n, Ends (validator n)) → Ends (preParseGroup cfg parents args processed validator ns)
  | [], validator, hv => by rw [preParseGroup]; exact Ends.pure _
  | c :: cs, validator, hv => by
    rw [preParseGroup]
    refine Ends.bind' (ends_preParse cfg parents args processed c validator hv) ?_
    intro o
    cases o with
    | none => exact ends_group cfg parents args processed cs validator hv
    | some r => exact Ends.pure _
theorem ends_oneOf (cfg : Config) (parents : List Node) (args : List Token)
    (processed : Option Target) : ∀ (ns : List Node) (validator : Validator),
    (∀ n, Ends (validator n)) → Ends (preParseOneOf cfg parents args processed validator ns)
  | [], validator, hv => by rw [preParseOneOf]; exact Ends.pure _
  | c :: cs, validator, hv => by
    rw [preParseOneOf]
    refine Ends.bind' (ends_preParse cfg parents args processed c validator hv) ?_
    intro o
    cases o with
    | none => exact ends_oneOf cfg parents args processed cs validator hv
    | some r => exact Ends.bind' (hv c) fun _ => Ends.pure _
end

theorem ends_verifyMatch (already : Bool) (front : Token) (n : Node) :
    Ends (verifyMatch already front n) := by
  unfold verifyMatch
  split
  · exact Ends.pure _
  · split
    · split
      · exact Ends.throw _
      · exact Ends.pure _
    · exact Ends.pure _

open Utf8 in
theorem levenshtein_ne_diverge (a b : Bytes) : levenshtein a b ≠ .diverge := by
  have hg : ∀ s, gCount s ≠ .diverge := by
    intro s
    unfold gCount
    exact bind_ne_diverge (C41_any_bytes s).1 fun _ => by simp
  unfold levenshtein
  split
  · exact hg _
  · split
    · exact hg _
    · exact bind_ne_diverge (C41_any_bytes _).1 fun _ =>
        bind_ne_diverge (C41_any_bytes _).1 fun _ => by simp

theorem unknownArgument_ne_diverge {α : Type} (cfg : Config) (n : Node) (t : Token) :
    (unknownArgument cfg n t : Out α) ≠ .diverge := by
  have hloop : ∀ name cs best score, closestLoop name cs best score ≠ .diverge := by
    intro name cs
    induction cs with
    | nil => intro best score; simp [closestLoop]
    | cons c cs ih =>
      intro best score
      simp only [closestLoop]
      refine bind_ne_diverge (levenshtein_ne_diverge _ _) fun s => ?_
      split
      · exact ih _ _
      · exact ih _ _
  unfold unknownArgument
  refine bind_ne_diverge ?_ fun found => ?_
  · unfold closest; exact hloop _ _ _ _
  · split <;> simp

end ArgRouter

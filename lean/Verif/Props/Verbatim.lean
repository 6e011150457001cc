import Verif.Props.Valid
import Verif.Props.Reading

/-!
# C79: values are taken from the command line as they are
-/

namespace ArgRouter.Spec

/-- The values are drawn from the arguments in their order, each argument being used at most once,
as a whole or for the part after the first separator. -/
inductive Drawn (separator : UInt8 → Prop) : (values arguments : List Bytes) → Prop
  | nil : Drawn separator [] []
  | skip {vs as : List Bytes} {a : Bytes} (h : Drawn separator vs as) : Drawn separator vs (a :: as)
  | whole {vs as : List Bytes} {a : Bytes} (h : Drawn separator vs as) :
      Drawn separator (a :: vs) (a :: as)
  | part {vs as : List Bytes} {label v : Bytes} {ch : UInt8} (hs : separator ch) (hc : ch ∉ label)
      (h : Drawn separator vs as) : Drawn separator (v :: vs) ((label ++ ch :: v) :: as)

/-- The separators used in the mode. -/
def SeparatorOf (mode : Node) (ch : UInt8) : Prop :=
  ∃ a ∈ arguments mode, Policy.valueSeparator [ch] ∈ a.2.policies

/-- All the values in these uses of arguments. -/
def allValues (uses : List Leaf) : List Bytes := uses.flatMap fun l => l.tokens.map Token.name

end ArgRouter.Spec

namespace ArgRouter.Props

open Spec

theorem drawn_none {P : UInt8 → Prop} (as : List Bytes) : Drawn P [] as := by
  induction as with
  | nil => exact .nil
  | cons a as ih => exact .skip ih

theorem drawn_skips {P : UInt8 → Prop} {vs as : List Bytes} (h : Drawn P vs as) (as' : List Bytes) :
    Drawn P vs (as' ++ as) := by
  induction as' with
  | nil => exact h
  | cons a as' ih => exact .skip ih

theorem drawn_wholes {P : UInt8 → Prop} {vs as : List Bytes} (h : Drawn P vs as) (l : List Bytes) :
    Drawn P (l ++ vs) (l ++ as) := by
  induction l with
  | nil => exact h
  | cons a l ih => exact .whole ih

/-- The values taken and what is left are parts of what follows the label. -/
theorem values_parts {sh : Shape} {c : Node} {follows vs left : List Token}
    (h : sh.values c follows = .ok (vs, left)) : ∃ mid, follows = vs ++ mid ++ left := by
  unfold Shape.values at h
  split at h
  · split at h
    · cases h
    · simp only [Except.ok.injEq, Prod.mk.injEq] at h
      exact ⟨[], by rw [← h.1, ← h.2, List.append_nil, List.take_append_drop]⟩
  · rename_i m hm
    split at h
    · cases h
    · split at h
      · cases h
      · simp only [Except.ok.injEq, Prod.mk.injEq] at h
        refine ⟨(follows.dropWhile fun t => t.name != m).take 1, ?_⟩
        rw [← h.1, ← h.2, List.append_assoc]
        unfold beforeMarker afterMarker
        rw [List.take_append_drop, List.takeWhile_append_dropWhile]

theorem takes_drawn {cfg : Config} {mode c : Node} {sofar uses : List Leaf} {t : Token}
    {rest left : List Token} {i : Nat} (hin : (i, c) ∈ arguments mode)
    (hexp : ¬ Expanding mode) (hal : ∀ a ∈ arguments mode, ∀ refs, Policy.alias refs ∉ a.2.policies)
    (hc : Claims cfg mode sofar c t rest (.takes uses left)) {vs : List Bytes}
    (h : Drawn (SeparatorOf mode) vs (left.map Token.name)) :
    Drawn (SeparatorOf mode) (allValues uses ++ vs) ((t :: rest).map Token.name) := by
  obtain ⟨sh, hd, hcl⟩ := hc
  have hmem : ∀ p ∈ sh.policies, p ∈ c.policies := fun p hp =>
    (List.mem_filter.1 (hd.policies.mem_iff.2 hp)).1
  cases hcl with
  | @takes follows vs' _ hl hv hlk =>
  have huses : sh.uses mode c vs' = [⟨c, vs'⟩] := by
    unfold Shape.uses
    cases ha : sh.aliasOf with
    | none => rfl
    | some refs =>
      exact absurd (hmem (.alias refs) (by simp [Shape.policies, ha])) (hal _ hin refs)
  have hall : allValues (sh.uses mode c vs') = vs'.map Token.name := by
    simp [huses, allValues]
  rw [hall]
  obtain ⟨mid, hmid⟩ := values_parts hv
  have hfollows : Drawn (SeparatorOf mode) (vs'.map Token.name ++ vs)
      (follows.map Token.name) := by
    rw [hmid, List.map_append, List.map_append, List.append_assoc]
    exact drawn_wholes (drawn_skips h _) _
  cases hl with
  | label hs hl => exact .skip hfollows
  | collapsed he hx hg hsn =>
    exact absurd ⟨(i, c), hin, hmem _ (by simp [Shape.policies, he])⟩ hexp
  | @separated ch l w hs ht hcl hv' hl =>
    obtain ⟨-, -, h1, h2, -⟩ := hd.separated (by rw [hs]; rfl)
    have hm : sh.marker = none := by
      cases hm : sh.marker with
      | none => rfl
      | some m =>
        have := (hd.marked (by rw [hm]; rfl)).1
        rw [hs] at this; cases this
    have hv2 : vs' = [⟨.none, w⟩] ∧ left = rest := by
      simp only [Shape.values, hm, h1, h2, List.length_cons, List.take_succ_cons, List.take_zero,
        List.drop_succ_cons, List.drop_zero] at hv
      rw [if_neg (by omega)] at hv
      simp only [Except.ok.injEq, Prod.mk.injEq] at hv
      exact ⟨hv.1.symm, hv.2.symm⟩
    obtain ⟨rfl, rfl⟩ := hv2
    simp only [List.map_cons, List.map_nil, List.cons_append, List.nil_append, ht]
    exact .part ⟨(i, c), hin, hmem _ (by simp [Shape.policies, hs])⟩ hcl h
  | positional hn => exact hfollows

theorem reading_drawn {cfg : Config} {mode : Node}
    (hexp : ¬ Expanding mode) (hal : ∀ a ∈ arguments mode, ∀ refs, Policy.alias refs ∉ a.2.policies)
    {chosen chosen' : Choices} {sofar : List Leaf} {used : List Nat} {args : List Token} {r : Result}
    (hr : Reading cfg mode chosen sofar used args r chosen') : ∀ uses, r = .accepts uses →
    ∃ more, uses = sofar ++ more ∧
      Drawn (SeparatorOf mode) (allValues more) (args.map Token.name) := by
  induction hr with
  | done => intro uses h; cases h; exact ⟨[], by simp, .nil⟩
  | @take chosen chosen' sofar u used t rest left a r hf hk ha hc hr ih =>
    intro uses h
    obtain ⟨more, rfl, h2⟩ := ih uses h
    refine ⟨u ++ more, by rw [List.append_assoc], ?_⟩
    have : allValues (u ++ more) = allValues u ++ allValues more := by simp [allValues]
    rw [this]
    obtain ⟨before, after, hargs, -, -⟩ := hf
    exact takes_drawn (i := a.1) (by rw [hargs]; simp) hexp hal hc h2
  | clash => intro uses h; cases h
  | again => intro uses h; cases h
  | refused => intro uses h; cases h
  | unhandled => intro uses h; cases h
  | unknown => intro uses h; cases h

/-- C79, what holds: in a program without short flag expansion and aliases, if the parse succeeds,
then the mode was run on uses of arguments whose values are command line arguments as they were
typed, or the parts of such after a separator; each is used at most once, and they are in the order
of the command line. -/
theorem C79_partial (cfg : Config) (root mode : Node) (argv : List Bytes) (s s' : St)
    (hroot : root.children = [mode]) (hkind : mode.kind = .mode) (hanon : mode.isAnonymous = true)
    (ho : Ordinary mode) (hrep : RepeatableNamed mode)
    (hexp : ¬ Expanding mode) (hal : ∀ a ∈ arguments mode, ∀ refs, Policy.alias refs ∉ a.2.policies)
    (hlen : (argv.map List.length).sum + argv.length < 2 ^ 63)
    (h : parseArgs cfg root argv s = (.ok (), s')) :
    ∃ uses chosen, parseMode mode uses { s with sel := chosen } = (.ok (), s') ∧
      Drawn (SeparatorOf mode) (allValues uses) argv := by
  obtain ⟨r, chosen, hr⟩ := C76_total cfg mode s.sel (argv.map (Token.mk .none)) ho hrep
    (fun h => absurd h hexp) (by simpa [List.map_map, Function.comp_def] using hlen)
  rw [C76_program cfg root mode argv r chosen s hroot hkind hanon ho hrep (fun h => absurd h hexp) hlen
    hr] at h
  cases r with
  | accepts uses =>
    obtain ⟨more, h1, h2⟩ := reading_drawn hexp hal hr uses rfl
    simp only [List.nil_append] at h1
    subst h1
    refine ⟨uses, chosen, h, ?_⟩
    simpa [List.map_map, Function.comp_def] using h2
  | fails e => cases h
  | unknown t =>
    simp only [outcomeOf, unknownArgument, M.lift_apply] at h
    cases hcl : closest cfg mode t with
    | ok found =>
      rw [hcl] at h
      simp only [Out.ok_bind] at h
      split at h <;> cases h
    | _ => rw [hcl] at h; cases h

/-- A flag `-f` and any number of files. -/
def shortForce : Node := mkFlag .default 1 1 [.shortName (b "f")]
def someFiles : Node := mkPositional 2 2 textsType [.required, .minMaxCount 1 sizeMax]
def filesRoot : Node := mkRoot 4 4 [mkMode 3 3 [.router] [shortForce, someFiles]]

/-- C79 is false if short flags are expanded: `-fx` with a flag `-f` and a positional argument passes
`x` to the positional argument, which is not an argument on the command line, nor a part of one
after a separator. (`-x` is not known, and a lone `-x` is passed on with its dash.) -/
theorem C79_collapsed_false :
    Accepted filesRoot ∧
    parseArgs .default filesRoot [b "-fx"] .fresh =
      (.ok (), ⟨[], [⟨3, [.one (.bool true), .many [.str (b "x")]]⟩]⟩) ∧
    parseArgs .default filesRoot [b "-f", b "-x"] .fresh =
      (.ok (), ⟨[], [⟨3, [.one (.bool true), .many [.str (b "-x")]]⟩]⟩) ∧
    ¬ ∃ sep, (∀ ch, ¬ sep ch) ∧ Drawn sep [b "x"] [b "-fx"] := by
  refine ⟨by unfold Accepted; decide +kernel, by decide +kernel, by decide +kernel, ?_⟩
  rintro ⟨sep, hno, h⟩
  generalize hx : [b "x"] = vs at h
  generalize ha : [b "-fx"] = as at h
  cases h with
  | nil => cases ha
  | skip h =>
    cases ha
    subst hx
    cases h
  | whole h =>
    cases ha
    have := (List.cons.inj hx).1
    revert this
    decide
  | part hs hc h => exact hno _ hs

/-- A mode that meets the hypotheses of the positive part. -/
def drawnMode : Node := .mk .mode 10 10 boolType [.noResult, .router] [levelArg, depthArg, filesArg]

example : Ordinary drawnMode ∧ ¬ Expanding drawnMode ∧
    (∀ a ∈ arguments drawnMode, ∀ refs, Policy.alias refs ∉ a.2.policies) ∧
    SeparatorOf drawnMode 61 := by
  have h : arguments drawnMode = [(0, levelArg), (1, depthArg), (2, filesArg)] := by rfl
  refine ⟨⟨fun _ => rfl, ?_, ?_⟩, ?_, ?_, ?_⟩
  · intro a ha
    rw [h] at ha
    have hin : a.2 ∈ (arguments ordinaryMode).map Prod.snd := by
      have h' : (arguments ordinaryMode).map Prod.snd = [forceFlag, levelArg, depthArg, everyFlag,
        offFlag, .mk .arg 8 8 textType [.minMaxCount 1 1, .longName (b "name")] [],
        .mk .arg 9 9 textType [.minMaxCount 1 1, .longName (b "title")] [],
        .mk .arg 13 13 textType [.minMaxCount 1 1, .longName (b "this")] [],
        .mk .arg 14 14 textType [.minMaxCount 1 1, .longName (b "that")] [], filesArg] := by rfl
      rw [h']
      simp only [List.mem_cons, List.not_mem_nil, or_false] at ha
      rcases ha with rfl | rfl | rfl <;> simp
    obtain ⟨a', ha', he⟩ := List.mem_map.1 hin
    rcases ordinaryMode_ordinary.arguments a' ha' with ho | ⟨sh, hd, -⟩
    · left; rw [← he]; exact ho
    · refine .inr ⟨sh, he ▸ hd, ?_⟩
      intro refs hr
      have := (List.mem_filter.1 ((he ▸ hd : Declared a.2 sh).policies.mem_iff.2
        (show Policy.alias refs ∈ sh.policies by simp [Shape.policies, hr]))).1
      simp only [List.mem_cons, List.not_mem_nil, or_false] at ha
      rcases ha with rfl | rfl | rfl <;>
        simp [levelArg, depthArg, filesArg, Node.policies] at this
  · intro a ha o hg
    rw [h] at ha
    simp only [List.mem_cons, List.not_mem_nil, or_false] at ha
    rcases ha with rfl | rfl | rfl <;> cases hg
  · rintro ⟨a, ha, hp⟩
    rw [h] at ha
    simp only [List.mem_cons, List.not_mem_nil, or_false] at ha
    rcases ha with rfl | rfl | rfl <;> simp [levelArg, depthArg, filesArg, Node.policies] at hp
  · intro a ha refs hp
    rw [h] at ha
    simp only [List.mem_cons, List.not_mem_nil, or_false] at ha
    rcases ha with rfl | rfl | rfl <;> simp [levelArg, depthArg, filesArg, Node.policies] at hp
  · exact ⟨(0, levelArg), by rw [h]; simp, by
      show _ ∈ [_, _, _, _]
      exact List.mem_cons_self⟩

end ArgRouter.Props

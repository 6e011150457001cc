import Verif.Exc.Root
import Verif.Lemmas.Safe
import Verif.Props.Errors
import Verif.Parse.Classes

/-!
# Failures of root.parse

C57: whenever parsing fails because of the command line the caller sees a `parse_exception` whose
message is the translation of the error code with the offending tokens filled in.
-/

namespace ArgRouter

open Spec Utf8

namespace Props

/-- C57: an error found while parsing becomes a `parse_exception` with the user's message for its
code, filled in with the error's tokens. -/
theorem C57_translated (cfg : Config) (custom fallback : Translations) (root : Node)
    (args : List Bytes) (s s' : St) (e : Exc) (ps : List Piece) (hps : Spec.WellFormed ps)
    (h : FirstFor custom e.ec.num (written ps) ∨
      NoneFor custom e.ec.num ∧ FirstFor fallback e.ec.num (written ps))
    (hrun : parseArgs cfg root args s = (.throw e, s')) :
    rootSeen cfg custom fallback root args s =
      (.parseException (errorText cfg ps e.tokens), s') := by
  have : translate cfg custom fallback e.ec.num e.tokens = .ok (errorText cfg ps e.tokens) := by
    rcases h with h | ⟨h1, h2⟩
    · exact C56_custom cfg custom fallback _ ps hps h _
    · exact C56_fallback cfg custom fallback _ ps hps h1 h2 _
  rw [rootSeen, hrun]
  simp only [this]

/-- C57 with the translations a root has by default: the caller sees a `parse_exception` exactly
when parsing found an error, and it has the documented English message of that error with its
tokens. -/
theorem C57_default (cfg : Config) (root : Node) (args : List Bytes) (s s' : St) (msg : Bytes) :
    rootSeen cfg defaultTranslations [] root args s = (.parseException msg, s') ↔
    ∃ e, parseArgs cfg root args s = (.throw e, s') ∧
      msg = errorText cfg (english e.ec) e.tokens := by
  have key : ∀ e : Exc, translate cfg defaultTranslations [] e.ec.num e.tokens =
      .ok (errorText cfg (english e.ec) e.tokens) := fun e =>
    C56_custom cfg _ _ _ _ (english_wf e.ec) (english_default e.ec) _
  unfold rootSeen
  match parseArgs cfg root args s with
  | (.ok _, s1) => simp
  | (.throw e, s1) =>
    simp only [key, Prod.mk.injEq, Seen.parseException.injEq, Out.throw.injEq]
    constructor
    · rintro ⟨rfl, rfl⟩; exact ⟨e, ⟨rfl, rfl⟩, rfl⟩
    · rintro ⟨e', ⟨rfl, rfl⟩, rfl⟩; exact ⟨rfl, rfl⟩
  | (.foreign, s1) => simp
  | (.ub, s1) => simp
  | (.diverge, s1) => simp

/-- C57 is false: with a flag that has a short name, the command line `-` alone makes the parser
throw a `std::length_error` (`reserve` of a wrapped-around size, short_form_expander.hpp:100), and
an argument that ends within a UTF-8 sequence that starts with DF or EF, or a name with such a
character in the tree, makes it read past the end of a string while looking for a suggestion. -/
theorem C57_false :
    (rootSeen .default defaultTranslations []
      (mkRoot 91 91 [mkMode 92 92 [.router] [mkFlag .default 93 93 [.shortName (b "a")]]])
      [b "-"] .fresh).1 = .foreign ∧
    (rootSeen .default defaultTranslations []
      (mkRoot 91 91 [mkMode 92 92 [.router] [mkFlag .default 93 93 [.longName (b "hello")]]])
      [enc ['！']] .fresh).1 = .ub := by decide +kernel

/-- C57, the true part: on a tree as the compile-time checks and the documentation ask for, and a
command line of text (without the characters of C34), `root.parse` either returns or throws a
`parse_exception` with the documented message of the error found. If some flag has a short name, the
last argument must not be just the short prefix. Missing, because false: that case
(`C57_lone_prefix`), and text that the decoder mishandles. -/
theorem C57_safe_partial (cfg : Config) (hcfg : AsciiPrefixes cfg) (root : Node)
    (htree : SoundTree root) (hrep : RepeatableNamed root) (hends : ParsersEnd root)
    (args : List Bytes) (hargs : ∀ a ∈ args, Text a)
    (hlast : Expands root → args.getLast? ≠ some cfg.shortPrefix) (s : St) :
    (∃ s', rootSeen cfg defaultTranslations [] root args s = (.returned, s')) ∨
    ∃ e s', parseArgs cfg root args s = (.throw e, s') ∧
      rootSeen cfg defaultTranslations [] root args s =
        (.parseException (errorText cfg (english e.ec) e.tokens), s') := by
  have h1 := parseArgs_sound hcfg htree hargs hlast s
  have h2 := C18_parse_ends cfg root args hrep hends s
  match h : parseArgs cfg root args s with
  | (.ok _, s') => exact .inl ⟨s', by rw [rootSeen, h]⟩
  | (.throw e, s') => exact .inr ⟨e, s', rfl, (C57_default ..).2 ⟨e, h, rfl⟩⟩
  | (.foreign, s') => rw [h] at h1; exact absurd rfl h1.2.1
  | (.ub, s') => rw [h] at h1; exact absurd rfl h1.1
  | (.diverge, s') => rw [h] at h2; exact absurd rfl h2

/-- C57, the case of the lone short prefix: any node with a short name that expands short flags, whatever
else there is to it (it may even be switched off), throws a `std::length_error` when it is asked about a
command line of which only the short prefix is left. (Unless it has a value separator, which comes before.) -/
theorem C57_lone_prefix (cfg : Config) (n : Node) (parents : List Node) (processed : Option Target)
    (validator : Validator) (s : St) (hlong : ¬ cfg.longPrefix <+: cfg.shortPrefix)
    (he : .shortFormExpander ∈ n.policies) (hsep : ∀ sep, .valueSeparator sep ∉ n.policies)
    (name : Bytes) (hname : n.shortName = some name) (hne : name ≠ []) :
    leafPreParse cfg n parents [⟨.none, cfg.shortPrefix⟩] processed validator s = (.foreign, s) := by
  have hpre : startsWith cfg.longPrefix cfg.shortPrefix = false := by
    rw [Bool.eq_false_iff, ne_eq, startsWith, beq_iff_eq]
    exact fun h => hlong (List.prefix_iff_eq_take.2 h.symm)
  have hself : startsWith cfg.shortPrefix cfg.shortPrefix = true := by
    rw [startsWith, beq_iff_eq, List.take_length]
  have htok : n.getToken cfg cfg.shortPrefix = ⟨.short, []⟩ := by
    simp [Node.getToken, getTokenTypeNode, hpre, hself, hname]
  have hphase : Policy.shortFormExpander.phase cfg n parents processed
      ⟨[], [⟨.none, cfg.shortPrefix⟩]⟩ [] = .foreign := by
    have hl : ¬ 0 = name.length := fun h => hne (List.length_eq_zero_iff.1 h.symm)
    have h1 : Adapter.deref ⟨[], [⟨.none, cfg.shortPrefix⟩]⟩ Adapter.begin_ =
        .ok ⟨.none, cfg.shortPrefix⟩ := rfl
    have h2 : (Adapter.transfer ⟨[], [⟨.none, cfg.shortPrefix⟩]⟩ Adapter.begin_).unprocessed = [] := rfl
    simp [Policy.phase, shortFormExpanderPhase, Adapter.isEmpty, h1, h2, htok, hname, hl]
  have hrun : ∀ ps, Desc ps → (∀ p ∈ ps, p ∈ n.policies) → .shortFormExpander ∈ ps →
      runPhases cfg n parents processed ps (.ok .validNode) ⟨[], [⟨.none, cfg.shortPrefix⟩]⟩ [] =
        .foreign := by
    intro ps
    induction ps with
    | nil => intro _ _ h; cases h
    | cons p ps ih =>
      intro hd hm hin
      by_cases hp : p.hasPreParse = true
      · have hpe : p = .shortFormExpander := by
          rcases List.mem_cons.1 hin with h | h
          · exact h.symm
          · have hle := (List.pairwise_cons.1 hd).1 _ h
            cases p <;> simp [Policy.priority, Policy.hasPreParse] at hle hp
            · exact absurd (hm _ List.mem_cons_self) (hsep _)
            · rfl
        subst hpe
        rw [runPhases_cons_valid _ _ _ _ _ _ _ _ hp, hphase]
        rfl
      · have hskip : runPhases cfg n parents processed (p :: ps) (.ok .validNode)
            ⟨[], [⟨.none, cfg.shortPrefix⟩]⟩ [] = runPhases cfg n parents processed ps (.ok .validNode)
            ⟨[], [⟨.none, cfg.shortPrefix⟩]⟩ [] := by
          simp only [runPhases, hp, Bool.false_eq_true, if_false]
        rw [hskip]
        refine ih (List.pairwise_cons.1 hd).2 (fun q hq => hm q (List.mem_cons_of_mem _ hq)) ?_
        rcases List.mem_cons.1 hin with h | h
        · subst h; exact absurd rfl hp
        · exact h
  rw [leafPreParse, M.bind_apply, M.lift_apply,
    hrun _ (sortPolicies_desc _) (fun p hp => mem_sortPolicies.1 hp) (mem_sortPolicies.2 he)]

/-- So every program whose only mode has no name and starts with a flag that has a short name throws a
`std::length_error` if it is called with the short prefix alone, whatever else the mode has. -/
theorem C57_lone_program (cfg : Config) (root mode flag : Node) (more : List Node) (s : St)
    (hroot : root.children = [mode]) (hmode : mode.kind = .mode) (hanon : mode.noneName = none)
    (hch : mode.children = flag :: more) (hflag : flag.kind = .flag)
    (hlong : ¬ cfg.longPrefix <+: cfg.shortPrefix)
    (he : .shortFormExpander ∈ flag.policies) (hsep : ∀ sep, .valueSeparator sep ∉ flag.policies)
    (name : Bytes) (hname : flag.shortName = some name) (hne : name ≠ []) :
    (rootSeen cfg defaultTranslations [] root [cfg.shortPrefix] s).1 = .foreign := by
  have key : parseArgs cfg root [cfg.shortPrefix] s = (.foreign, s) := by
    have hleaf := fun parents processed validator =>
      C57_lone_prefix cfg flag parents processed validator s hlong he hsep name hname hne
    have hpp : ∀ parents processed validator,
        preParse cfg parents [⟨.none, cfg.shortPrefix⟩] processed flag validator s = (.foreign, s) := by
      intro parents processed validator
      obtain ⟨k, u, h, v, p, cs⟩ := flag
      cases hflag
      rw [preParse]
      · exact hleaf parents processed validator
      all_goals simp
    have hstep : ∀ parents target matched,
        modeStep cfg parents target matched ⟨.none, cfg.shortPrefix⟩ [⟨.none, cfg.shortPrefix⟩]
          (flag :: more) 0 s = (.foreign, s) := by
      intro parents target matched
      rw [modeStep, if_neg (by simp [hflag]), M.bind_apply, hpp]
    have hloop : ∀ parents fuel target matched, modeLoop cfg mode parents (fuel + 1) target matched
        [⟨.none, cfg.shortPrefix⟩] s = (.foreign, s) := by
      intro parents fuel target matched
      rw [modeLoop, hch, M.bind_apply, hstep]
    have hmp : preParseMode cfg [root] [⟨.none, cfg.shortPrefix⟩] alwaysTrue mode s = (.foreign, s) := by
      have hfuel : ∃ k, modeFuel mode [⟨.none, cfg.shortPrefix⟩] = k + 1 :=
        ⟨modeFuel mode [⟨.none, cfg.shortPrefix⟩] - 1, by
          have : 0 < modeFuel mode [⟨.none, cfg.shortPrefix⟩] :=
            Nat.mul_pos (Nat.succ_pos _) (Nat.succ_pos _)
          omega⟩
      obtain ⟨k, hk⟩ := hfuel
      have hb : modeBody cfg mode [root] alwaysTrue [⟨.none, cfg.shortPrefix⟩] s = (.foreign, s) := by
        unfold modeBody
        simp only [alwaysTrue, M.pure_bind, Bool.not_true, Bool.false_eq_true, if_false]
        rw [M.bind_apply, hk, hloop]
      obtain ⟨k', u, h, v, p, cs⟩ := mode
      rw [preParseMode]
      simp only [Node.isAnonymous, hanon, Option.isNone_none, if_true]
      exact hb
    unfold parseArgs rootParse
    simp only [hroot, rootLoop, offerTo, hmode, beq_self_eq_true, if_true, M.bind_apply, List.map_cons,
      List.map_nil, hmp]
  rw [rootSeen, key]

/-- The flag of such a program may be switched off. -/
example : (rootSeen .default defaultTranslations [] (mkRoot 91 91 [mkMode 92 92 [.router]
    [mkFlag .default 93 93 [.shortName (b "a"), .runtimeEnable false],
      mkFlag .default 94 94 [.longName (b "all")]]]) [b "-"] .fresh).1 = .foreign := by
  refine C57_lone_program .default _ _ _ _ _ rfl rfl rfl rfl rfl (by decide) ?_ ?_ (b "a") rfl (by decide)
  · have h : b "--" ≠ b "-" := by decide
    simp [mkFlag, Node.policies, expanderIf, Config.default, h]
  · simp [mkFlag, Node.policies, expanderIf, Config.default]

/-! ## A tree that meets the hypotheses -/

theorem text_ascii {s : Bytes} (h : s.all (fun x => x.toNat < 0x80) = true) : Text s := by
  induction s with
  | nil => exact text_nil
  | cons x s ih =>
    simp only [List.all_cons, Bool.and_eq_true, decide_eq_true_eq] at h
    obtain ⟨cs, hp, rfl⟩ := ih h.2
    have hv : x.toNat.isValidChar := Or.inl (by omega)
    have hx : (Char.ofNat x.toNat).toNat = x.toNat := by
      simp [Char.ofNat, hv, Char.toNat, Char.ofNatAux]
    refine ⟨Char.ofNat x.toNat :: cs, ?_, ?_⟩
    · intro c hc
      rcases List.mem_cons.1 hc with rfl | hc
      · simp only [leadDForEF, hx, Bool.or_eq_false_iff, Bool.and_eq_false_iff,
          decide_eq_false_iff_not]
        omega
      · exact hp c hc
    · rw [enc_cons]
      rcases encChar_cases (Char.ofNat x.toNat) with ⟨-, e⟩ | ⟨h2, -⟩ | ⟨h2, -⟩ | ⟨h2, -⟩
      · rw [e, hx]; simp
      all_goals rw [hx] at h2; omega

def safeFlag : Node := mkFlag .default 93 93 [.longName (b "all"), .shortName (b "a")]
def safeName : Node := mkArg 94 94 ⟨false, .one (.str []), fun s => .ok (.str s)⟩
  [.longName (b "name"), .valueSeparator (b "="), .dependent [.long (b "all")]]
def safeAlias : Node := mkFlag .default 95 95 [.longName (b "every"), .alias [.long (b "all")]]
def safeFiles : Node := mkPositional 96 96 stringList [.displayName (b "FILES"), .minMaxCount 0 2]
def safeMode : Node := mkMode 92 92 [.router] [safeFlag, safeAlias, safeName, safeFiles]
def safeSub : Node := mkMode 97 97 [.noneName (b "sub")] [safeDeep]
  where safeDeep : Node := mkMode 98 98 [.router, .noneName (b "deep")] [safeFlag]
def safeRoot : Node := mkRoot 91 91 [safeSub, safeMode]

theorem safeRoot_nodes (n : Node) (h : n ∈ safeRoot.nodes) :
    n = safeRoot ∨ n = safeSub ∨ n = safeSub.safeDeep ∨ n = safeFlag ∨ n = safeMode ∨
      n = safeAlias ∨ n = safeName ∨ n = safeFiles := by
  have : safeRoot.nodes = [safeRoot, safeSub, safeSub.safeDeep, safeFlag, safeMode, safeFlag,
    safeAlias, safeName, safeFiles] := rfl
  rw [this] at h
  simp only [List.mem_cons, List.not_mem_nil, or_false] at h
  rcases h with h | h | h | h | h | h | h | h | h <;> simp [h]

theorem soundNode_of {n : Node} (hnames : ∀ s, n.longName = some s ∨ n.shortName = some s ∨
      n.noneName = some s → s.all (fun x => x.toNat < 0x80) = true)
    (hsep : ∀ s, Policy.valueSeparator s ∈ n.policies →
      s.length = 1 ∧ Policy.shortFormExpander ∉ n.policies)
    (halias : HasAlias n → n.minMaxCount.isSome = true)
    (hmode : n.kind = .mode → ¬ HasAlias n ∧ ¬ HasDependent n)
    (hnamed : n.nameRefs ≠ [] → Runnable n = true)
    (hp : TakesValues n = true → Behaves n.vt.parse)
    (hc : ∀ f, Policy.customParser f ∈ n.policies → Behaves f)
    (hv : ∀ t f, Policy.validation t f ∈ n.policies → ∀ v, f v ≠ .ub ∧ f v ≠ .foreign)
    (hh : ∀ f, Policy.helpText f ∈ n.policies → ∀ ts, f ts ≠ .ub ∧ f ts ≠ .foreign) :
    SoundNode n :=
  ⟨fun s hs => text_ascii (hnames s hs), hsep, halias, hmode, hnamed, hp, hc, hv, hh⟩

theorem safeRoot_sound : SoundTree safeRoot := by
  refine ⟨?_, ?_, rfl, ?_, ?_⟩
  · intro n hn
    rcases safeRoot_nodes n hn with rfl | rfl | rfl | rfl | rfl | rfl | rfl | rfl
    all_goals
      refine soundNode_of ?_ ?_ ?_ ?_ ?_ ?_ ?_ ?_ ?_
      · rintro s (h | h | h) <;>
          simp [safeRoot, safeSub, safeSub.safeDeep, safeFlag, safeMode, safeAlias, safeName,
            safeFiles, mkRoot, mkMode, modePolicies, mkFlag, mkArg, mkPositional, addCount, expanderIf,
            Config.default, Node.longName, Node.shortName, Node.noneName, Node.policies] at h <;>
          (try rcases h with h | h) <;> (try subst h) <;> decide +kernel
      · intro s h
        simp [safeRoot, safeSub, safeSub.safeDeep, safeFlag, safeMode, safeAlias, safeName,
            safeFiles, mkRoot, mkMode, modePolicies, mkFlag, mkArg, mkPositional, addCount, expanderIf,
            Config.default, Node.policies] at h
        try (subst h; exact ⟨by decide, by simp [safeName, mkArg, Node.policies]⟩)
      · rintro ⟨r, h⟩
        first
          | rfl
          | simp [safeRoot, safeSub, safeSub.safeDeep, safeMode, mkRoot, mkMode, modePolicies, Node.policies] at h
      · intro h
        first
          | exact absurd h (by decide)
          | (constructor <;> rintro ⟨r, h⟩ <;>
              simp [safeSub, safeSub.safeDeep, safeMode, mkMode, modePolicies, Node.policies] at h)
      · first | exact fun _ => rfl | exact fun h => absurd rfl h
      · intro h
        first
          | exact absurd h (by decide)
          | (intro s; simp [safeName, safeFiles, mkArg, mkPositional, stringList, Node.vt])
      · intro f h
        simp [safeRoot, safeSub, safeSub.safeDeep, safeFlag, safeMode, safeAlias, safeName,
            safeFiles, mkRoot, mkMode, modePolicies, mkFlag, mkArg, mkPositional, addCount, expanderIf,
            Config.default, Node.policies] at h
      · intro t f h
        simp [safeRoot, safeSub, safeSub.safeDeep, safeFlag, safeMode, safeAlias, safeName,
            safeFiles, mkRoot, mkMode, modePolicies, mkFlag, mkArg, mkPositional, addCount, expanderIf,
            Config.default, Node.policies] at h
      · intro f h
        simp [safeRoot, safeSub, safeSub.safeDeep, safeFlag, safeMode, safeAlias, safeName,
            safeFiles, mkRoot, mkMode, modePolicies, mkFlag, mkArg, mkPositional, addCount, expanderIf,
            Config.default, Node.policies] at h
  · intro p hp c hc
    rcases safeRoot_nodes p hp with rfl | rfl | rfl | rfl | rfl | rfl | rfl | rfl
    all_goals
      simp [safeRoot, safeSub, safeSub.safeDeep, safeFlag, safeMode, safeAlias, safeName,
            safeFiles, mkRoot, mkMode, modePolicies, mkFlag, mkArg, mkPositional, Node.children] at hc
    · rcases hc with rfl | rfl <;> decide
    · subst hc; decide
    · subst hc; decide
    · rcases hc with rfl | rfl | rfl | rfl <;> decide
  · intro m hm hk
    rcases safeRoot_nodes m hm with rfl | rfl | rfl | rfl | rfl | rfl | rfl | rfl
    all_goals first
      | exact .inl rfl
      | exact absurd hk (by decide)
      | exact .inr (by simp [safeSub, mkMode, modePolicies, safeSub.safeDeep, Node.children, Node.kind])
  · intro c hc hk n hn
    simp only [safeRoot, mkRoot, Node.children, List.mem_cons, List.not_mem_nil, or_false] at hc
    rcases hc with rfl | rfl <;> exact absurd rfl hk

/-- The hypotheses of `C57_safe_partial` are met by a tree with a nested mode, an alias, a dependent
argument with a separator, a flag with short-form expansion and a positional argument, and a
command line with non-ASCII text. -/
example : AsciiPrefixes .default ∧ SoundTree safeRoot ∧
    (∀ a ∈ [b "-a", b "--name=été", b "-", b "猫"], Text a) ∧
    (rootSeen .default defaultTranslations [] safeRoot [b "-a", b "--name=été", b "-", b "猫"]
      .fresh).1 = .returned ∧
    (rootSeen .default defaultTranslations [] safeRoot [b "--name=été", b "猫"] .fresh).1 =
      .parseException (b "Dependent argument missing (needs to be before the requiring token on the \
        command line): --all") := by
  refine ⟨by unfold AsciiPrefixes; decide, safeRoot_sound, ?_, by decide +kernel, by decide +kernel⟩
  intro a ha
  simp only [List.mem_cons, List.not_mem_nil, or_false] at ha
  rcases ha with rfl | rfl | rfl | rfl
  · exact ⟨['-', 'a'], by decide, by decide +kernel⟩
  · exact ⟨"--name=été".toList, by decide, by decide +kernel⟩
  · exact ⟨['-'], by decide, by decide +kernel⟩
  · exact ⟨['猫'], by decide, by decide +kernel⟩

end Props

end ArgRouter

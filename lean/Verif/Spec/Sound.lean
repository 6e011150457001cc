import Verif.Spec.Utf8
import Verif.Parse.Mode

/-!
# Specification vocabulary: trees and command lines that cannot crash the parser

What the library's compile-time checks and documentation ask of a tree, and what has to be asked of
a command line because of the defects shown elsewhere.
-/

namespace ArgRouter.Spec

/-- Well-formed UTF-8 text without the characters the library's decoder mishandles (C34). -/
def Text (s : Bytes) : Prop := ∃ cs, Plain cs ∧ s = enc cs

/-- A node that is run when the arguments are processed (not a mode, group or root). -/
def Runnable (n : Node) : Bool :=
  match n.kind with
  | .flag | .countingFlag | .arg | .multiArg | .positional | .forwarding | .help => true
  | _ => false

/-- A node that turns tokens into values. -/
def TakesValues (n : Node) : Bool :=
  match n.kind with
  | .arg | .multiArg | .positional | .forwarding => true
  | _ => false

/-- Has an `alias` policy. -/
def HasAlias (n : Node) : Prop := ∃ refs, Policy.alias refs ∈ n.policies

/-- Has a `dependent` policy. -/
def HasDependent (n : Node) : Prop := ∃ refs, Policy.dependent refs ∈ n.policies

/-- User code neither has undefined behaviour nor throws exceptions of its own. -/
def Behaves (f : Bytes → Out Scalar) : Prop := ∀ s, f s ≠ .ub ∧ f s ≠ .foreign

/-- What is asked of one node. -/
structure SoundNode (n : Node) : Prop where
  /-- names are text -/
  names : ∀ s, n.longName = some s ∨ n.shortName = some s ∨ n.noneName = some s → Text s
  /-- a value separator is one byte, and is not combined with short-form expansion (which only
  flags have) -/
  separator : ∀ s, Policy.valueSeparator s ∈ n.policies →
    s.length = 1 ∧ Policy.shortFormExpander ∉ n.policies
  /-- an alias has a value count -/
  aliasCount : HasAlias n → n.minMaxCount.isSome = true
  /-- modes are neither aliases nor dependent -/
  mode : n.kind = .mode → ¬ HasAlias n ∧ ¬ HasDependent n
  /-- only runnable nodes have long or short names -/
  named : n.nameRefs ≠ [] → Runnable n = true
  /-- the parsers behave -/
  parser : TakesValues n = true → Behaves n.vt.parse
  customParser : ∀ f, Policy.customParser f ∈ n.policies → Behaves f
  /-- so do policies that validate -/
  validation : ∀ t f, Policy.validation t f ∈ n.policies → ∀ v, f v ≠ .ub ∧ f v ≠ .foreign
  /-- so does the help formatter (C83) -/
  help : ∀ f, Policy.helpText f ∈ n.policies → ∀ ts, f ts ≠ .ub ∧ f ts ≠ .foreign

/-- What is asked of a tree. -/
structure SoundTree (root : Node) : Prop where
  node : ∀ n ∈ root.nodes, SoundNode n
  /-- `root` is only at the top, modes are only in root and in modes -/
  kinds : ∀ p ∈ root.nodes, ∀ c ∈ p.children, c.kind ≠ .root ∧
    (c.kind = .mode → p.kind = .mode ∨ p.kind = .root)
  top : root.kind = .root
  /-- a mode has a router unless it has only modes in it (mode.hpp:228) -/
  routed : ∀ m ∈ root.nodes, m.kind = .mode → m.hasRouter = true ∨ ∀ c ∈ m.children, c.kind = .mode
  /-- aliases and dependents are in modes -/
  inModes : ∀ c ∈ root.children, c.kind ≠ .mode → ∀ n ∈ c.nodes, ¬ HasAlias n ∧ ¬ HasDependent n

/-- The prefixes consist of ASCII characters. -/
def AsciiPrefixes (cfg : Config) : Prop := ∀ x ∈ cfg.longPrefix ++ cfg.shortPrefix, x.toNat < 0x80

/-- Some node expands short flags written together, as all flags with a short name do. -/
def Expands (root : Node) : Prop := ∃ n ∈ root.nodes, Policy.shortFormExpander ∈ n.policies

end ArgRouter.Spec

import Verif.Utf8.TableGrapheme

/-!
# Grapheme cluster iteration

Model of include/arg_router/utility/utf8/grapheme_cluster_break.hpp and of the grapheme cluster
iterator, include/arg_router/utility/utf8.hpp:48-281 (default `AR_UTF8_TRAILING_WINDOW_SIZE` = 16).
-/

namespace ArgRouter.Utf8

/-- `grapheme_cluster_break_class`, grapheme_cluster_break.hpp:18-34. -/
inductive GClass where
  | any | CR | LF | control | extend | ZWJ | regional_indicator | prepend | spacing_mark
  | L | V | T | LV | LVT | extended_pictographic
  deriving DecidableEq, Repr

/-- `static_cast<grapheme_cluster_break_class>(meta)`, utf8.hpp:190. The shipped table only holds
0..14 (`graphemeTable_meta`). -/
def GClass.ofMeta : Nat → GClass
  | 1 => .CR | 2 => .LF | 3 => .control | 4 => .extend | 5 => .ZWJ | 6 => .regional_indicator
  | 7 => .prepend | 8 => .spacing_mark | 9 => .L | 10 => .V | 11 => .T | 12 => .LV | 13 => .LVT
  | 14 => .extended_pictographic | _ => .any

/-- `trailing_window_size`, utf8.hpp:182 and config.hpp (`AR_UTF8_TRAILING_WINDOW_SIZE`). -/
def windowSize : Nat := 16

/-- `trailing_window_`, utf8.hpp:270: always `windowSize` long, most recent first. -/
abbrev GWindow := List GClass

/-- `fill_trailing_window`, utf8.hpp:207-213. -/
def gWindowInit : GWindow := List.replicate windowSize .any

/-- `rotate_trailing_window` followed by the store to `front()`, utf8.hpp:215-226 and 246-247. -/
def gPush (c : GClass) (w : GWindow) : GWindow := c :: w.take (windowSize - 1)

/-- `trailing_window[0]`. The window is never empty (`gPush` always returns a non-empty list).
utility/utf8/grapheme_cluster_break.hpp:56, 74, 95. -/
def gHead (w : GWindow) : GClass := w.headD .any

/-- GB3, grapheme_cluster_break.hpp:51-58. -/
def GB3 (w : GWindow) (n : GClass) : Bool := gHead w == .CR && n == .LF
/-- GB6, grapheme_cluster_break.hpp:69-79. -/
def GB6 (w : GWindow) (n : GClass) : Bool :=
  gHead w == .L && (n == .L || n == .V || n == .LV || n == .LVT)
/-- GB7, grapheme_cluster_break.hpp:90-99. -/
def GB7 (w : GWindow) (n : GClass) : Bool :=
  (gHead w == .LV || gHead w == .V) && (n == .V || n == .T)
/-- GB8, grapheme_cluster_break.hpp:110-118. -/
def GB8 (w : GWindow) (n : GClass) : Bool := (gHead w == .LVT || gHead w == .T) && n == .T
/-- GB9, grapheme_cluster_break.hpp:129-136. -/
def GB9 (_w : GWindow) (n : GClass) : Bool := n == .extend || n == .ZWJ
/-- GB9a, grapheme_cluster_break.hpp:147-153. -/
def GB9a (_w : GWindow) (n : GClass) : Bool := n == .spacing_mark
/-- GB9b, grapheme_cluster_break.hpp:164-171. -/
def GB9b (w : GWindow) (_n : GClass) : Bool := gHead w == .prepend
/-- GB11, grapheme_cluster_break.hpp:182-190. -/
def GB11 (w : GWindow) (n : GClass) : Bool := gHead w == .ZWJ && n == .extended_pictographic
/-- The counting loop of GB12_13, grapheme_cluster_break.hpp:209-214: length of the leading run of
regional indicators in the window. -/
def riRun : GWindow → Nat
  | .regional_indicator :: w => riRun w + 1
  | _ => 0
/-- GB12_13, grapheme_cluster_break.hpp:202-217. -/
def GB12_13 (w : GWindow) (n : GClass) : Bool := riRun w % 2 != 0 && n == .regional_indicator

/-- `should_break`, utf8.hpp:196-205 with the rule array grapheme_cluster_break.hpp:224-232. -/
def gShouldBreak (w : GWindow) (n : GClass) : Bool :=
  !([GB3, GB6, GB7, GB8, GB9, GB9a, GB9b, GB11, GB12_13].any fun rule => rule w n)

/-- `extract_class`, utf8.hpp:184-194. -/
def gClass (cp : Nat) : GClass :=
  match findRange graphemeTable cp with
  | some r => GClass.ofMeta r.md
  | none => .any

/-- Class of the code point after the current one, utf8.hpp:250-260. -/
def gNextClass (s : Bytes) : GClass :=
  match s with
  | [] => .any
  | _ =>
    match decode (cpDeref s) with
    | some cp => gClass cp
    | none => .any

/-- Loop of `update_current`, utf8.hpp:237-265: `s` is what the code point iterator still has to
visit, `cur` is `current_`. -/
def gLoop : Nat → Bytes → Nat → GWindow → Out (Nat × GWindow)
  | _, [], cur, w => .ok (cur, w)
  | 0, _ :: _, _, _ => .diverge
  | fuel + 1, s@(_ :: _), cur, w =>
    let cur' := cur + cpSize (cpDeref s)
    match decode (cpDeref s) with
    | none => do
      let s' ← cpNext s
      gLoop fuel s' cur' w
    | some cp => do
      let w' := gPush (gClass cp) w
      let s' ← cpNext s
      if gShouldBreak w' (gNextClass s') then return (cur', w')
      else gLoop fuel s' cur' w'

/-- The state of `utf8::iterator`, utf8.hpp:268-270. -/
structure GIter where
  str : Bytes
  current : Nat
  window : GWindow
  deriving DecidableEq, Repr

/-- `update_current`, utf8.hpp:228-266. -/
def gUpdate (str : Bytes) (w : GWindow) : Out GIter := do
  let (cur, w') ← gLoop str.length str 0 w
  return { str := str, current := cur, window := w' }

/-- Constructor from a string, utf8.hpp:114-119. -/
def GIter.init (str : Bytes) : Out GIter := gUpdate str gWindowInit

/-- `operator*`, utf8.hpp:149-152. -/
def GIter.deref (it : GIter) : Bytes := it.str.take it.current

/-- `operator++`, utf8.hpp:158-167. -/
def GIter.next (it : GIter) : Out GIter :=
  if it.current ≤ it.str.length then gUpdate (it.str.drop it.current) it.window else .ub

/-- Iterating to the end: the list of dereferenced values. An iterator equals the end iterator
exactly when its string is empty (utf8.hpp:126-133). -/
def GIter.toList : Nat → GIter → Out (List Bytes)
  | 0, it => if it.str.isEmpty then .ok [] else .diverge
  | fuel + 1, it =>
    if it.str.isEmpty then .ok []
    else do
      let it' ← it.next
      let rest ← GIter.toList fuel it'
      return it.deref :: rest

/-- `for (auto gc : utf8::iterator::range(str))`, utf8.hpp:70-101. -/
def graphemes (str : Bytes) : Out (List Bytes) := do
  let it ← GIter.init str
  it.toList str.length

/-- `utf8::count`, utf8.hpp:278-281. -/
def gCount (str : Bytes) : Out Nat := do
  let gs ← graphemes str
  return gs.length

end ArgRouter.Utf8

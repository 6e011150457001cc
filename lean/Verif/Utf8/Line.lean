import Verif.Utf8.TableLine
import Verif.Utf8.Text

/-!
# Line wrapping

Model of include/arg_router/utility/utf8/line_break.hpp and of the line iterator,
include/arg_router/utility/utf8.hpp:343-569 (default `AR_UTF8_TRAILING_WINDOW_SIZE` = 16).
-/

namespace ArgRouter.Utf8

/-- `line_break_class`, line_break.hpp:15-55. -/
inductive LClass where
  | any | AL | BA | BB | B2 | BK | CB | CL | CM | CP | CR | EB | EM | EX | GL | H2 | H3 | HY | ID
  | HL | IN_ | IS | JL | JT | JV | LF | NL | NS | NU | OP | PO | PR | QU | RI | SP | SY | WJ | ZW
  | ZWJ
  deriving DecidableEq, Repr

/-- `static_cast<line_break_class>(meta)`, utf8.hpp:447. -/
def LClass.ofMeta : Nat → LClass
  | 1 => .AL | 2 => .BA | 3 => .BB | 4 => .B2 | 5 => .BK | 6 => .CB | 7 => .CL | 8 => .CM
  | 9 => .CP | 10 => .CR | 11 => .EB | 12 => .EM | 13 => .EX | 14 => .GL | 15 => .H2 | 16 => .H3
  | 17 => .HY | 18 => .ID | 19 => .HL | 20 => .IN_ | 21 => .IS | 22 => .JL | 23 => .JT | 24 => .JV
  | 25 => .LF | 26 => .NL | 27 => .NS | 28 => .NU | 29 => .OP | 30 => .PO | 31 => .PR | 32 => .QU
  | 33 => .RI | 34 => .SP | 35 => .SY | 36 => .WJ | 37 => .ZW | 38 => .ZWJ | _ => .any

/-- `trailing_window_`, utf8.hpp:568: always 16 long, most recent first. -/
abbrev LWindow := List LClass

/-- `fill_trailing_window`, utf8.hpp:464-470. -/
def lWindowInit : LWindow := List.replicate 16 .any

/-- `rotate_trailing_window` and the store to `front()`, utf8.hpp:472-483 and 539-540. -/
def lPush (c : LClass) (w : LWindow) : LWindow := c :: w.take 15

/-- `trailing_window[0]`. utility/utf8.hpp:568, read by the rules of
utility/utf8/line_break.hpp:68-678. -/
def lw0 (w : LWindow) : LClass := w.headD .any
/-- `trailing_window[1]`. utility/utf8.hpp:568, read by the rules of
utility/utf8/line_break.hpp:68-678. -/
def lw1 (w : LWindow) : LClass := w.tail.headD .any

/-- The scan shared by LB14-LB17 (line_break.hpp:206-213): the first class that is not SP. -/
def firstNonSP : LWindow → Option LClass
  | [] => none
  | .SP :: w => firstNonSP w
  | c :: _ => some c

/-- Length of the leading run of RI, line_break.hpp:650-655. -/
def lriRun : LWindow → Nat
  | .RI :: w => lriRun w + 1
  | _ => 0

/-- LB6, line_break.hpp:69-77. -/
def LB6 (_ : LWindow) (n : LClass) : Bool := n == .BK || n == .CR || n == .LF || n == .NL
/-- LB7, line_break.hpp:88-95. -/
def LB7 (_ : LWindow) (n : LClass) : Bool := n == .SP || n == .ZW
/-- LB8a_9, line_break.hpp:106-113. -/
def LB8a_9 (w : LWindow) (_ : LClass) : Bool := lw0 w == .CM || lw0 w == .ZWJ
/-- LB11, line_break.hpp:124-131. -/
def LB11 (w : LWindow) (n : LClass) : Bool := lw0 w == .WJ || n == .WJ
/-- LB12, line_break.hpp:142-148. -/
def LB12 (w : LWindow) (_ : LClass) : Bool := lw0 w == .GL
/-- LB12a, line_break.hpp:159-168. -/
def LB12a (w : LWindow) (n : LClass) : Bool :=
  (lw0 w != .SP && lw0 w != .BA && lw0 w != .HY) && n == .GL
/-- LB13, line_break.hpp:179-189. -/
def LB13 (_ : LWindow) (n : LClass) : Bool :=
  n == .CL || n == .CP || n == .EX || n == .IS || n == .SY
/-- LB14, line_break.hpp:200-216. -/
def LB14 (w : LWindow) (_ : LClass) : Bool := firstNonSP w == some .OP
/-- LB15, line_break.hpp:227-244. -/
def LB15 (w : LWindow) (n : LClass) : Bool := firstNonSP w == some .QU && n == .OP
/-- LB16, line_break.hpp:256-273. -/
def LB16 (w : LWindow) (n : LClass) : Bool :=
  (firstNonSP w == some .CL || firstNonSP w == some .CP) && n == .NS
/-- LB17, line_break.hpp:284-301. -/
def LB17 (w : LWindow) (n : LClass) : Bool := firstNonSP w == some .B2 && n == .B2
/-- LB19, line_break.hpp:312-319. -/
def LB19 (w : LWindow) (n : LClass) : Bool := n == .QU || lw0 w == .QU
/-- LB21, line_break.hpp:331-340. -/
def LB21 (w : LWindow) (n : LClass) : Bool := n == .BA || n == .HY || n == .NS || lw0 w == .BB
/-- LB21a, line_break.hpp:351-359. -/
def LB21a (w : LWindow) (_ : LClass) : Bool := lw1 w == .HL && (lw0 w == .HY || lw0 w == .BA)
/-- LB21b, line_break.hpp:370-377. -/
def LB21b (w : LWindow) (n : LClass) : Bool := lw0 w == .SY && n == .HL
/-- LB22, line_break.hpp:388-394. -/
def LB22 (_ : LWindow) (n : LClass) : Bool := n == .IN_
/-- LB23, line_break.hpp:405-416. -/
def LB23 (w : LWindow) (n : LClass) : Bool :=
  ((lw0 w == .AL || lw0 w == .HL) && n == .NU) || (lw0 w == .NU && (n == .AL || n == .HL))
/-- LB23a, line_break.hpp:428-441. -/
def LB23a (w : LWindow) (n : LClass) : Bool :=
  (lw0 w == .PR && (n == .ID || n == .EB || n == .EM)) ||
  ((lw0 w == .ID || lw0 w == .EB || lw0 w == .EM) && n == .PO)
/-- LB24, line_break.hpp:453-466. -/
def LB24 (w : LWindow) (n : LClass) : Bool :=
  ((lw0 w == .PR || lw0 w == .PO) && (n == .AL || n == .HL)) ||
  ((lw0 w == .AL || lw0 w == .HL) && (n == .PR || n == .PO))
/-- LB25, line_break.hpp:477-507. -/
def LB25 (w : LWindow) (n : LClass) : Bool :=
  [(LClass.CL, LClass.PO), (.CP, .PO), (.CL, .PR), (.CP, .PR), (.NU, .PO), (.NU, .PR), (.PO, .OP),
   (.PO, .NU), (.PR, .OP), (.PR, .NU), (.HY, .NU), (.IS, .NU), (.NU, .NU), (.SY, .NU)].any
    fun pr => lw0 w == pr.1 && n == pr.2
/-- LB26, line_break.hpp:518-535. -/
def LB26 (w : LWindow) (n : LClass) : Bool :=
  (lw0 w == .JL && (n == .JL || n == .JV || n == .H2 || n == .H3)) ||
  ((lw0 w == .JV || lw0 w == .H2) && (n == .JV || n == .JT)) ||
  ((lw0 w == .JT || lw0 w == .H3) && n == .JT)
/-- LB27, line_break.hpp:546-563. -/
def LB27 (w : LWindow) (n : LClass) : Bool :=
  ((lw0 w == .JL || lw0 w == .JV || lw0 w == .JT || lw0 w == .H2 || lw0 w == .H3) && n == .PO) ||
  (lw0 w == .PR && (n == .JL || n == .JV || n == .JT || n == .H2 || n == .H3))
/-- LB28, line_break.hpp:574-583. -/
def LB28 (w : LWindow) (n : LClass) : Bool :=
  (lw0 w == .AL || lw0 w == .HL) && (n == .AL || n == .HL)
/-- LB29, line_break.hpp:594-602. -/
def LB29 (w : LWindow) (n : LClass) : Bool := lw0 w == .IS && (n == .AL || n == .HL)
/-- LB30, line_break.hpp:618-631. -/
def LB30 (w : LWindow) (n : LClass) : Bool :=
  ((lw0 w == .AL || lw0 w == .HL || lw0 w == .NU) && n == .OP) ||
  (lw0 w == .CP && (n == .AL || n == .HL || n == .NU))
/-- LB30a, line_break.hpp:643-658. -/
def LB30a (w : LWindow) (n : LClass) : Bool := lriRun w % 2 != 0 && n == .RI
/-- LB30b, line_break.hpp:671-678. -/
def LB30b (w : LWindow) (n : LClass) : Bool := lw0 w == .EB && n == .EM

/-- `no_break_rules::line_break`, line_break.hpp:684-689. -/
def lineRules : List (LWindow → LClass → Bool) :=
  [LB6, LB7, LB8a_9, LB11, LB12, LB12a, LB13, LB14, LB15, LB16, LB17, LB19, LB21, LB21a, LB21b,
   LB22, LB23, LB23a, LB24, LB25, LB26, LB27, LB28, LB29, LB30, LB30a, LB30b]

/-- `should_break`, utf8.hpp:453-462. -/
def lShouldBreak (w : LWindow) (n : LClass) : Bool := !(lineRules.any fun rule => rule w n)

/-- `extract_class`, utf8.hpp:442-451. -/
def lClass (cp : Nat) : LClass :=
  match findRange lineTable cp with
  | some r => LClass.ofMeta r.md
  | none => .any

/-- Class of the code point after the current one, utf8.hpp:543-553. -/
def lNextClass (s : Bytes) : LClass :=
  match s with
  | [] => .any
  | _ =>
    match decode (cpDeref s) with
    | some cp => lClass cp
    | none => .any

/-- The whitespace-skipping loop, utf8.hpp:497-503: number of leading whitespace bytes. -/
def skipWs : Nat → Bytes → Nat → Out Nat
  | _, [], bytes => .ok bytes
  | 0, _ :: _, _ => .diverge
  | fuel + 1, s@(_ :: _), bytes =>
    if isWhitespace (cpDeref s) then do
      let s' ← cpNext s
      skipWs fuel s' (bytes + cpSize (cpDeref s))
    else .ok bytes

/-- The main loop of `consume`, utf8.hpp:513-562. `s` is what remains to be visited of the line
string of `total` bytes; returns the new `line_break_byte_` and window. -/
def lLoop (maxCols total : Nat) :
    Nat → Bytes → (column bytes lbColumn lbByte : Nat) → LWindow → Out (Nat × LWindow)
  | _, [], _, _, _, _, w => .ok (total, w)
  | 0, _ :: _, _, _, _, _, _ => .diverge
  | fuel + 1, s@(_ :: _), column, bytes, lbColumn, lbByte, w => do
    let width ← terminalWidth (cpDeref s)
    let column' := column + width
    if column' > maxCols then
      if lbColumn == 0 then return (bytes, w) else return (lbByte, w)
    else
      let bytes' := bytes + cpSize (cpDeref s)
      match decode (cpDeref s) with
      | none => do
        let s' ← cpNext s
        lLoop maxCols total fuel s' column' bytes' lbColumn lbByte w
      | some cp => do
        let w' := lPush (lClass cp) w
        let s' ← cpNext s
        if lShouldBreak w' (lNextClass s') then
          lLoop maxCols total fuel s' column' bytes' column' bytes' w'
        else
          lLoop maxCols total fuel s' column' bytes' lbColumn lbByte w'

/-- State of `line_iterator`, utf8.hpp:565-568. -/
structure LIter where
  str : Bytes
  maxCols : Nat
  lineBreakByte : Nat
  window : LWindow
  deriving DecidableEq, Repr

/-- The part of `consume` after the skipping, utf8.hpp:511-562. -/
def lScan (str : Bytes) (maxCols : Nat) (w : LWindow) : Out LIter := do
  let (n, w') ← lLoop maxCols str.length str.length str 0 0 0 0 w
  return { str := str, maxCols := maxCols, lineBreakByte := n, window := w' }

/-- `consume`, utf8.hpp:485-563. -/
def LIter.consume (it : LIter) : Out LIter :=
  if it.str.isEmpty then .ok it
  else if it.lineBreakByte != 0 then
    if it.lineBreakByte ≤ it.str.length then do
      let str := it.str.drop it.lineBreakByte
      let bytes ← skipWs str.length str 0
      if bytes ≤ str.length then
        let str := str.drop bytes
        if str.isEmpty then return { it with str := str, lineBreakByte := 0 }
        else lScan str it.maxCols it.window
      else .ub
    else .ub
  else lScan it.str it.maxCols it.window

/-- Constructor, utf8.hpp:370-379. -/
def LIter.init (str : Bytes) (maxCols : Nat) : Out LIter :=
  LIter.consume
    { str := if maxCols == 0 then [] else str, maxCols := maxCols, lineBreakByte := 0,
      window := lWindowInit }

/-- `operator*`, utf8.hpp:416-419. -/
def LIter.deref (it : LIter) : Bytes := it.str.take it.lineBreakByte

/-- Iterating to the end iterator (`str_` empty, utf8.hpp:392-400). -/
def LIter.toList : Nat → LIter → Out (List Bytes)
  | 0, it => if it.str.isEmpty then .ok [] else .diverge
  | fuel + 1, it =>
    if it.str.isEmpty then .ok []
    else do
      let it' ← it.consume
      let rest ← LIter.toList fuel it'
      return it.deref :: rest

/-- `for (auto it = line_iterator{str, n}; it != line_iterator{}; ++it)` with a bound on the number
of lines. The loops of policy/default_help_formatter.hpp:68-77 and 112-122 over
utility/utf8.hpp:343-569. -/
def linesFuel (fuel : Nat) (str : Bytes) (maxCols : Nat) : Out (List Bytes) := do
  let it ← LIter.init str maxCols
  it.toList fuel

/-- All lines of a string. There can be no more lines than bytes, unless the iteration does not make
progress (`C47`). The loops of policy/default_help_formatter.hpp:68-77 and 112-122. -/
def lines (str : Bytes) (maxCols : Nat) : Out (List Bytes) := linesFuel str.length str maxCols

end ArgRouter.Utf8

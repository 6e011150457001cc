import Verif.Utf8.Grapheme
import Verif.Utf8.Line

/-!
# Tests of the break rules

Written by tools/gen_break_tests.py from /repo/test/utility/utf8/grapheme_cluster_break_test.cpp and
line_break_test.cpp: every window, class and result of those tests.
-/

namespace ArgRouter.Tests.Break

open Utf8

/-- The rule gives these results. -/
def gives {C : Type} (rule : List C → C → Bool) (cases : List (List C × C × Bool)) : Bool :=
  cases.all fun c => rule c.1 c.2.1 == c.2.2

/-! ## grapheme_cluster_break_test.cpp -/

/-- grapheme_cluster_break_test.cpp:19-78. -/
example : gives (C := GClass) GB3
    [([.CR], .LF, true), ([.LF], .LF, false), ([.CR, .LF], .LF, true), ([.any], .LF, false),
     ([.LF], .any, false)] = true := by
  decide +kernel

/-- grapheme_cluster_break_test.cpp:79-154. -/
example : gives (C := GClass) GB6
    [([.L], .L, true), ([.L], .V, true), ([.L], .LV, true), ([.L], .LVT, true),
     ([.any], .LVT, false), ([.L], .any, false), ([.V], .L, false)] = true := by
  decide +kernel

/-- grapheme_cluster_break_test.cpp:155-239. -/
example : gives (C := GClass) GB7
    [([.LV], .V, true), ([.LV], .T, true), ([.V], .V, true), ([.V], .T, true),
     ([.LVT], .V, false), ([.L], .T, false), ([.LV], .regional_indicator, false),
     ([.V], .regional_indicator, false)] = true := by
  decide +kernel

/-- grapheme_cluster_break_test.cpp:240-288. -/
example : gives (C := GClass) GB8
    [([.LVT], .T, true), ([.T], .T, true), ([.prepend], .T, false), ([.LVT], .prepend, false)] = true := by
  decide +kernel

/-- grapheme_cluster_break_test.cpp:289-337. -/
example : gives (C := GClass) GB9
    [([.any], .ZWJ, true), ([.any], .extend, true), ([.any], .regional_indicator, false),
     ([.extend], .any, false)] = true := by
  decide +kernel

/-- grapheme_cluster_break_test.cpp:338-377. -/
example : gives (C := GClass) GB9a
    [([.any], .spacing_mark, true), ([.any], .regional_indicator, false),
     ([.spacing_mark], .any, false)] = true := by
  decide +kernel

/-- grapheme_cluster_break_test.cpp:378-408. -/
example : gives (C := GClass) GB9b
    [([.prepend], .any, true), ([.any], .prepend, false)] = true := by
  decide +kernel

/-- grapheme_cluster_break_test.cpp:409-448. -/
example : gives (C := GClass) GB11
    [([.ZWJ], .extended_pictographic, true), ([.any], .extended_pictographic, false),
     ([.ZWJ], .any, false)] = true := by
  decide +kernel

/-- grapheme_cluster_break_test.cpp:449-499. -/
example : gives (C := GClass) GB12_13
    [([.regional_indicator, .any], .regional_indicator, true),
     ([.regional_indicator, .regional_indicator, .ZWJ], .regional_indicator, false),
     ([.regional_indicator, .regional_indicator, .regional_indicator], .regional_indicator, true)] = true := by
  decide +kernel

/-! ## line_break_test.cpp -/

/-- line_break_test.cpp:19-68. -/
example : gives (C := LClass) LB6
    [([.any], .BK, true), ([.any], .CR, true), ([.any], .LF, true), ([.any], .NL, true),
     ([.NL], .any, false), ([.any], .AL, false)] = true := by
  decide +kernel

/-- line_break_test.cpp:69-106. -/
example : gives (C := LClass) LB7
    [([.any], .SP, true), ([.any], .ZW, true), ([.ZW], .any, false), ([.any], .AL, false)] = true := by
  decide +kernel

/-- line_break_test.cpp:107-146. -/
example : gives (C := LClass) LB8a_9
    [([.CM], .any, true), ([.ZWJ], .any, true), ([.ZWJ], .AL, true), ([.AL], .CM, false)] = true := by
  decide +kernel

/-- line_break_test.cpp:147-184. -/
example : gives (C := LClass) LB11
    [([.any], .WJ, true), ([.WJ], .any, true), ([.WJ], .WJ, true), ([.any], .AL, false)] = true := by
  decide +kernel

/-- line_break_test.cpp:185-222. -/
example : gives (C := LClass) LB12
    [([.GL], .any, true), ([.GL], .AL, true), ([.GL], .GL, true), ([.any], .GL, false)] = true := by
  decide +kernel

/-- line_break_test.cpp:223-266. -/
example : gives (C := LClass) LB12a
    [([.any], .GL, true), ([.GL], .GL, true), ([.SP], .GL, false), ([.BA], .GL, false),
     ([.HY], .GL, false)] = true := by
  decide +kernel

/-- line_break_test.cpp:267-322. -/
example : gives (C := LClass) LB13
    [([.any], .CL, true), ([.any], .CP, true), ([.any], .EX, true), ([.any], .IS, true),
     ([.any], .SY, true), ([.CL], .SY, true), ([.CL], .any, false)] = true := by
  decide +kernel

/-- line_break_test.cpp:323-375. -/
example : gives (C := LClass) LB14
    [([.OP], .any, true), ([.SP, .OP], .any, true), ([.SP, .SP, .OP], .any, true),
     ([.SP, .CL, .OP], .any, false)] = true := by
  decide +kernel

/-- line_break_test.cpp:376-434. -/
example : gives (C := LClass) LB15
    [([.QU], .OP, true), ([.SP, .QU], .OP, true), ([.SP, .SP, .QU], .OP, true),
     ([.SP, .AL, .QU], .OP, false), ([.QU], .AL, false)] = true := by
  decide +kernel

/-- line_break_test.cpp:435-540. -/
example : gives (C := LClass) LB16
    [([.CL], .NS, true), ([.CP], .NS, true), ([.SP, .CL], .NS, true), ([.SP, .CP], .NS, true),
     ([.SP, .SP, .CL], .NS, true), ([.SP, .SP, .CP], .NS, true), ([.CL], .AL, false),
     ([.CP], .AL, false), ([.SP, .AL, .CL], .NS, false), ([.SP, .AL, .CP], .NS, false)] = true := by
  decide +kernel

/-- line_break_test.cpp:541-599. -/
example : gives (C := LClass) LB17
    [([.B2], .B2, true), ([.SP, .B2], .B2, true), ([.SP, .SP, .B2], .B2, true),
     ([.SP, .AL, .B2], .B2, false), ([.B2], .AL, false)] = true := by
  decide +kernel

/-- line_break_test.cpp:600-643. -/
example : gives (C := LClass) LB19
    [([.any], .QU, true), ([.QU], .any, true), ([.QU], .QU, true), ([.AL], .QU, true),
     ([.any], .AL, false)] = true := by
  decide +kernel

/-- line_break_test.cpp:644-699. -/
example : gives (C := LClass) LB21
    [([.any], .BA, true), ([.any], .HY, true), ([.any], .NS, true), ([.BB], .any, true),
     ([.BA], .BA, true), ([.BA], .any, false), ([.any], .AL, false)] = true := by
  decide +kernel

/-- line_break_test.cpp:700-753. -/
example : gives (C := LClass) LB21a
    [([.HY, .HL], .any, true), ([.BA, .HL], .any, true), ([.AL, .HL], .any, false),
     ([.HY, .AL], .any, false)] = true := by
  decide +kernel

/-- line_break_test.cpp:754-785. -/
example : gives (C := LClass) LB21b
    [([.SY], .HL, true), ([.SY], .any, false), ([.AL], .HL, false)] = true := by
  decide +kernel

/-- line_break_test.cpp:786-811. -/
example : gives (C := LClass) LB22
    [([.any], .IN_, true), ([.any], .AL, false)] = true := by
  decide +kernel

/-- line_break_test.cpp:812-873. -/
example : gives (C := LClass) LB23
    [([.AL], .NU, true), ([.HL], .NU, true), ([.any], .NU, false), ([.AL], .any, false),
     ([.NU], .AL, true), ([.NU], .HL, true), ([.NU], .any, false), ([.NU], .NU, false)] = true := by
  decide +kernel

/-- line_break_test.cpp:874-947. -/
example : gives (C := LClass) LB23a
    [([.PR], .ID, true), ([.PR], .EB, true), ([.PR], .EM, true), ([.any], .ID, false),
     ([.PR], .any, false), ([.ID], .PO, true), ([.EB], .PO, true), ([.EM], .PO, true),
     ([.any], .PO, false), ([.ID], .any, false)] = true := by
  decide +kernel

/-- line_break_test.cpp:948-1033. -/
example : gives (C := LClass) LB24
    [([.PR], .AL, true), ([.PO], .AL, true), ([.PR], .HL, true), ([.PO], .HL, true),
     ([.any], .HL, false), ([.PO], .any, false), ([.AL], .PR, true), ([.HL], .PR, true),
     ([.AL], .PO, true), ([.HL], .PO, true), ([.HL], .any, false), ([.HL], .HL, false)] = true := by
  decide +kernel

/-- line_break_test.cpp:1034-1143. -/
example : gives (C := LClass) LB25
    [([.CL], .PO, true), ([.CP], .PO, true), ([.CL], .PR, true), ([.CP], .PR, true),
     ([.NU], .PO, true), ([.NU], .PR, true), ([.PO], .OP, true), ([.PO], .NU, true),
     ([.PR], .OP, true), ([.PR], .NU, true), ([.HY], .NU, true), ([.IS], .NU, true),
     ([.NU], .NU, true), ([.SY], .NU, true), ([.any], .PO, false), ([.SY], .CP, false)] = true := by
  decide +kernel

/-- line_break_test.cpp:1144-1241. -/
example : gives (C := LClass) LB26
    [([.JL], .JL, true), ([.JL], .JV, true), ([.JL], .H2, true), ([.JL], .H3, true),
     ([.JL], .any, false), ([.CP], .H3, false), ([.JV], .JV, true), ([.JV], .JT, true),
     ([.H2], .JV, true), ([.H2], .JT, true), ([.JV], .any, false), ([.JT], .JT, true),
     ([.H3], .JT, true), ([.any], .JT, false)] = true := by
  decide +kernel

/-- line_break_test.cpp:1242-1339. -/
example : gives (C := LClass) LB27
    [([.JL], .PO, true), ([.JV], .PO, true), ([.JT], .PO, true), ([.H2], .PO, true),
     ([.H3], .PO, true), ([.any], .PO, false), ([.JL], .any, false), ([.PR], .JL, true),
     ([.PR], .JV, true), ([.PR], .JT, true), ([.PR], .H2, true), ([.PR], .H3, true),
     ([.any], .JL, false), ([.PR], .any, false)] = true := by
  decide +kernel

/-- line_break_test.cpp:1340-1401. -/
example : gives (C := LClass) LB28
    [([.AL], .AL, true), ([.AL], .HL, true), ([.HL], .AL, true), ([.HL], .HL, true),
     ([.any], .AL, false), ([.AL], .any, false), ([.any], .HL, false), ([.HL], .any, false)] = true := by
  decide +kernel

/-- line_break_test.cpp:1402-1439. -/
example : gives (C := LClass) LB29
    [([.IS], .AL, true), ([.IS], .HL, true), ([.any], .AL, false), ([.IS], .any, false)] = true := by
  decide +kernel

/-- line_break_test.cpp:1440-1483. -/
example : gives (C := LClass) LB30
    [([.AL], .OP, true), ([.HL], .OP, true), ([.NU], .OP, true), ([.any], .OP, false),
     ([.NU], .any, false)] = true := by
  decide +kernel

/-- line_break_test.cpp:1484-1548. -/
example : gives (C := LClass) LB30a
    [([.RI], .RI, true), ([.RI, .RI, .RI], .RI, true), ([.RI, .any, .RI], .RI, true),
     ([.RI, .RI], .RI, false), ([.any], .RI, false), ([.RI], .any, false)] = true := by
  decide +kernel

/-- line_break_test.cpp:1549-1580. -/
example : gives (C := LClass) LB30b
    [([.EB], .EM, true), ([.any], .EM, false), ([.EB], .any, false)] = true := by
  decide +kernel

end ArgRouter.Tests.Break

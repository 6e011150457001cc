import Verif.Utf8.Range

/-! # Generated from include/arg_router/utility/utf8/grapheme_cluster_break.hpp:244-871 (do not edit) -/

namespace ArgRouter.Utf8

/-- Part 0 of `graphemeTable`, grapheme_cluster_break.hpp:244-871. -/
def graphemeTable0 : List Range := [
  ⟨0x0, 0x9, 3⟩, ⟨0xA, 0xA, 2⟩, ⟨0xB, 0xC, 3⟩, ⟨0xD, 0xD, 1⟩,
  ⟨0xE, 0x1F, 3⟩, ⟨0x7F, 0x9F, 3⟩, ⟨0xA9, 0xA9, 14⟩, ⟨0xAD, 0xAD, 3⟩,
  ⟨0xAE, 0xAE, 14⟩, ⟨0x300, 0x36F, 4⟩, ⟨0x483, 0x487, 4⟩, ⟨0x488, 0x489, 4⟩,
  ⟨0x591, 0x5BD, 4⟩, ⟨0x5BF, 0x5BF, 4⟩, ⟨0x5C1, 0x5C2, 4⟩, ⟨0x5C4, 0x5C5, 4⟩,
  ⟨0x5C7, 0x5C7, 4⟩, ⟨0x600, 0x605, 7⟩, ⟨0x610, 0x61A, 4⟩, ⟨0x61C, 0x61C, 3⟩,
  ⟨0x64B, 0x65F, 4⟩, ⟨0x670, 0x670, 4⟩, ⟨0x6D6, 0x6DC, 4⟩, ⟨0x6DD, 0x6DD, 7⟩,
  ⟨0x6DF, 0x6E4, 4⟩, ⟨0x6E7, 0x6E8, 4⟩, ⟨0x6EA, 0x6ED, 4⟩, ⟨0x70F, 0x70F, 7⟩,
  ⟨0x711, 0x711, 4⟩, ⟨0x730, 0x74A, 4⟩, ⟨0x7A6, 0x7B0, 4⟩, ⟨0x7EB, 0x7F3, 4⟩,
  ⟨0x7FD, 0x7FD, 4⟩, ⟨0x816, 0x819, 4⟩, ⟨0x81B, 0x823, 4⟩, ⟨0x825, 0x827, 4⟩,
  ⟨0x829, 0x82D, 4⟩, ⟨0x859, 0x85B, 4⟩, ⟨0x890, 0x891, 7⟩, ⟨0x898, 0x89F, 4⟩,
  ⟨0x8CA, 0x8E1, 4⟩, ⟨0x8E2, 0x8E2, 7⟩, ⟨0x8E3, 0x902, 4⟩, ⟨0x903, 0x903, 8⟩,
  ⟨0x93A, 0x93A, 4⟩, ⟨0x93B, 0x93B, 8⟩, ⟨0x93C, 0x93C, 4⟩, ⟨0x93E, 0x940, 8⟩,
  ⟨0x941, 0x948, 4⟩, ⟨0x949, 0x94C, 8⟩, ⟨0x94D, 0x94D, 4⟩, ⟨0x94E, 0x94F, 8⟩,
  ⟨0x951, 0x957, 4⟩, ⟨0x962, 0x963, 4⟩, ⟨0x981, 0x981, 4⟩, ⟨0x982, 0x983, 8⟩,
  ⟨0x9BC, 0x9BC, 4⟩, ⟨0x9BE, 0x9BE, 4⟩, ⟨0x9BF, 0x9C0, 8⟩, ⟨0x9C1, 0x9C4, 4⟩,
  ⟨0x9C7, 0x9C8, 8⟩, ⟨0x9CB, 0x9CC, 8⟩, ⟨0x9CD, 0x9CD, 4⟩, ⟨0x9D7, 0x9D7, 4⟩,
  ⟨0x9E2, 0x9E3, 4⟩, ⟨0x9FE, 0x9FE, 4⟩, ⟨0xA01, 0xA02, 4⟩, ⟨0xA03, 0xA03, 8⟩,
  ⟨0xA3C, 0xA3C, 4⟩, ⟨0xA3E, 0xA40, 8⟩, ⟨0xA41, 0xA42, 4⟩, ⟨0xA47, 0xA48, 4⟩,
  ⟨0xA4B, 0xA4D, 4⟩, ⟨0xA51, 0xA51, 4⟩, ⟨0xA70, 0xA71, 4⟩, ⟨0xA75, 0xA75, 4⟩,
  ⟨0xA81, 0xA82, 4⟩, ⟨0xA83, 0xA83, 8⟩, ⟨0xABC, 0xABC, 4⟩, ⟨0xABE, 0xAC0, 8⟩,
  ⟨0xAC1, 0xAC5, 4⟩, ⟨0xAC7, 0xAC8, 4⟩, ⟨0xAC9, 0xAC9, 8⟩, ⟨0xACB, 0xACC, 8⟩,
  ⟨0xACD, 0xACD, 4⟩, ⟨0xAE2, 0xAE3, 4⟩, ⟨0xAFA, 0xAFF, 4⟩, ⟨0xB01, 0xB01, 4⟩,
  ⟨0xB02, 0xB03, 8⟩, ⟨0xB3C, 0xB3C, 4⟩, ⟨0xB3E, 0xB3E, 4⟩, ⟨0xB3F, 0xB3F, 4⟩,
  ⟨0xB40, 0xB40, 8⟩, ⟨0xB41, 0xB44, 4⟩, ⟨0xB47, 0xB48, 8⟩, ⟨0xB4B, 0xB4C, 8⟩,
  ⟨0xB4D, 0xB4D, 4⟩, ⟨0xB55, 0xB56, 4⟩, ⟨0xB57, 0xB57, 4⟩, ⟨0xB62, 0xB63, 4⟩,
  ⟨0xB82, 0xB82, 4⟩, ⟨0xBBE, 0xBBE, 4⟩, ⟨0xBBF, 0xBBF, 8⟩, ⟨0xBC0, 0xBC0, 4⟩,
  ⟨0xBC1, 0xBC2, 8⟩, ⟨0xBC6, 0xBC8, 8⟩, ⟨0xBCA, 0xBCC, 8⟩, ⟨0xBCD, 0xBCD, 4⟩,
  ⟨0xBD7, 0xBD7, 4⟩, ⟨0xC00, 0xC00, 4⟩, ⟨0xC01, 0xC03, 8⟩, ⟨0xC04, 0xC04, 4⟩,
  ⟨0xC3C, 0xC3C, 4⟩, ⟨0xC3E, 0xC40, 4⟩, ⟨0xC41, 0xC44, 8⟩, ⟨0xC46, 0xC48, 4⟩,
  ⟨0xC4A, 0xC4D, 4⟩, ⟨0xC55, 0xC56, 4⟩, ⟨0xC62, 0xC63, 4⟩, ⟨0xC81, 0xC81, 4⟩,
  ⟨0xC82, 0xC83, 8⟩, ⟨0xCBC, 0xCBC, 4⟩, ⟨0xCBE, 0xCBE, 8⟩, ⟨0xCBF, 0xCBF, 4⟩,
  ⟨0xCC0, 0xCC1, 8⟩, ⟨0xCC2, 0xCC2, 4⟩, ⟨0xCC3, 0xCC4, 8⟩, ⟨0xCC6, 0xCC6, 4⟩,
  ⟨0xCC7, 0xCC8, 8⟩, ⟨0xCCA, 0xCCB, 8⟩, ⟨0xCCC, 0xCCD, 4⟩, ⟨0xCD5, 0xCD6, 4⟩,
  ⟨0xCE2, 0xCE3, 4⟩, ⟨0xD00, 0xD01, 4⟩, ⟨0xD02, 0xD03, 8⟩, ⟨0xD3B, 0xD3C, 4⟩,
  ⟨0xD3E, 0xD3E, 4⟩, ⟨0xD3F, 0xD40, 8⟩, ⟨0xD41, 0xD44, 4⟩, ⟨0xD46, 0xD48, 8⟩,
  ⟨0xD4A, 0xD4C, 8⟩, ⟨0xD4D, 0xD4D, 4⟩, ⟨0xD4E, 0xD4E, 7⟩, ⟨0xD57, 0xD57, 4⟩,
  ⟨0xD62, 0xD63, 4⟩, ⟨0xD81, 0xD81, 4⟩, ⟨0xD82, 0xD83, 8⟩, ⟨0xDCA, 0xDCA, 4⟩,
  ⟨0xDCF, 0xDCF, 4⟩, ⟨0xDD0, 0xDD1, 8⟩, ⟨0xDD2, 0xDD4, 4⟩, ⟨0xDD6, 0xDD6, 4⟩,
  ⟨0xDD8, 0xDDE, 8⟩, ⟨0xDDF, 0xDDF, 4⟩, ⟨0xDF2, 0xDF3, 8⟩, ⟨0xE31, 0xE31, 4⟩,
  ⟨0xE33, 0xE33, 8⟩, ⟨0xE34, 0xE3A, 4⟩, ⟨0xE47, 0xE4E, 4⟩, ⟨0xEB1, 0xEB1, 4⟩,
  ⟨0xEB3, 0xEB3, 8⟩, ⟨0xEB4, 0xEBC, 4⟩, ⟨0xEC8, 0xECD, 4⟩, ⟨0xF18, 0xF19, 4⟩,
  ⟨0xF35, 0xF35, 4⟩, ⟨0xF37, 0xF37, 4⟩, ⟨0xF39, 0xF39, 4⟩, ⟨0xF3E, 0xF3F, 8⟩,
  ⟨0xF71, 0xF7E, 4⟩, ⟨0xF7F, 0xF7F, 8⟩, ⟨0xF80, 0xF84, 4⟩, ⟨0xF86, 0xF87, 4⟩,
  ⟨0xF8D, 0xF97, 4⟩, ⟨0xF99, 0xFBC, 4⟩, ⟨0xFC6, 0xFC6, 4⟩, ⟨0x102D, 0x1030, 4⟩,
  ⟨0x1031, 0x1031, 8⟩, ⟨0x1032, 0x1037, 4⟩, ⟨0x1039, 0x103A, 4⟩, ⟨0x103B, 0x103C, 8⟩,
  ⟨0x103D, 0x103E, 4⟩, ⟨0x1056, 0x1057, 8⟩, ⟨0x1058, 0x1059, 4⟩, ⟨0x105E, 0x1060, 4⟩,
  ⟨0x1071, 0x1074, 4⟩, ⟨0x1082, 0x1082, 4⟩, ⟨0x1084, 0x1084, 8⟩, ⟨0x1085, 0x1086, 4⟩,
  ⟨0x108D, 0x108D, 4⟩, ⟨0x109D, 0x109D, 4⟩, ⟨0x1100, 0x115F, 9⟩, ⟨0x1160, 0x11A7, 10⟩,
  ⟨0x11A8, 0x11FF, 11⟩, ⟨0x135D, 0x135F, 4⟩, ⟨0x1712, 0x1714, 4⟩, ⟨0x1715, 0x1715, 8⟩,
  ⟨0x1732, 0x1733, 4⟩, ⟨0x1734, 0x1734, 8⟩, ⟨0x1752, 0x1753, 4⟩, ⟨0x1772, 0x1773, 4⟩,
  ⟨0x17B4, 0x17B5, 4⟩, ⟨0x17B6, 0x17B6, 8⟩, ⟨0x17B7, 0x17BD, 4⟩, ⟨0x17BE, 0x17C5, 8⟩,
  ⟨0x17C6, 0x17C6, 4⟩, ⟨0x17C7, 0x17C8, 8⟩, ⟨0x17C9, 0x17D3, 4⟩, ⟨0x17DD, 0x17DD, 4⟩,
  ⟨0x180B, 0x180D, 4⟩, ⟨0x180E, 0x180E, 3⟩, ⟨0x180F, 0x180F, 4⟩, ⟨0x1885, 0x1886, 4⟩,
  ⟨0x18A9, 0x18A9, 4⟩, ⟨0x1920, 0x1922, 4⟩, ⟨0x1923, 0x1926, 8⟩, ⟨0x1927, 0x1928, 4⟩,
  ⟨0x1929, 0x192B, 8⟩, ⟨0x1930, 0x1931, 8⟩, ⟨0x1932, 0x1932, 4⟩, ⟨0x1933, 0x1938, 8⟩,
  ⟨0x1939, 0x193B, 4⟩, ⟨0x1A17, 0x1A18, 4⟩, ⟨0x1A19, 0x1A1A, 8⟩, ⟨0x1A1B, 0x1A1B, 4⟩,
  ⟨0x1A55, 0x1A55, 8⟩, ⟨0x1A56, 0x1A56, 4⟩, ⟨0x1A57, 0x1A57, 8⟩, ⟨0x1A58, 0x1A5E, 4⟩,
  ⟨0x1A60, 0x1A60, 4⟩, ⟨0x1A62, 0x1A62, 4⟩, ⟨0x1A65, 0x1A6C, 4⟩, ⟨0x1A6D, 0x1A72, 8⟩,
  ⟨0x1A73, 0x1A7C, 4⟩, ⟨0x1A7F, 0x1A7F, 4⟩, ⟨0x1AB0, 0x1ABD, 4⟩, ⟨0x1ABE, 0x1ABE, 4⟩,
  ⟨0x1ABF, 0x1ACE, 4⟩, ⟨0x1B00, 0x1B03, 4⟩, ⟨0x1B04, 0x1B04, 8⟩, ⟨0x1B34, 0x1B34, 4⟩,
  ⟨0x1B35, 0x1B35, 4⟩, ⟨0x1B36, 0x1B3A, 4⟩, ⟨0x1B3B, 0x1B3B, 8⟩, ⟨0x1B3C, 0x1B3C, 4⟩,
  ⟨0x1B3D, 0x1B41, 8⟩, ⟨0x1B42, 0x1B42, 4⟩, ⟨0x1B43, 0x1B44, 8⟩, ⟨0x1B6B, 0x1B73, 4⟩,
  ⟨0x1B80, 0x1B81, 4⟩, ⟨0x1B82, 0x1B82, 8⟩]

/-- Part 1 of `graphemeTable`, grapheme_cluster_break.hpp:244-871. -/
def graphemeTable1 : List Range := [
  ⟨0x1BA1, 0x1BA1, 8⟩, ⟨0x1BA2, 0x1BA5, 4⟩, ⟨0x1BA6, 0x1BA7, 8⟩, ⟨0x1BA8, 0x1BA9, 4⟩,
  ⟨0x1BAA, 0x1BAA, 8⟩, ⟨0x1BAB, 0x1BAD, 4⟩, ⟨0x1BE6, 0x1BE6, 4⟩, ⟨0x1BE7, 0x1BE7, 8⟩,
  ⟨0x1BE8, 0x1BE9, 4⟩, ⟨0x1BEA, 0x1BEC, 8⟩, ⟨0x1BED, 0x1BED, 4⟩, ⟨0x1BEE, 0x1BEE, 8⟩,
  ⟨0x1BEF, 0x1BF1, 4⟩, ⟨0x1BF2, 0x1BF3, 8⟩, ⟨0x1C24, 0x1C2B, 8⟩, ⟨0x1C2C, 0x1C33, 4⟩,
  ⟨0x1C34, 0x1C35, 8⟩, ⟨0x1C36, 0x1C37, 4⟩, ⟨0x1CD0, 0x1CD2, 4⟩, ⟨0x1CD4, 0x1CE0, 4⟩,
  ⟨0x1CE1, 0x1CE1, 8⟩, ⟨0x1CE2, 0x1CE8, 4⟩, ⟨0x1CED, 0x1CED, 4⟩, ⟨0x1CF4, 0x1CF4, 4⟩,
  ⟨0x1CF7, 0x1CF7, 8⟩, ⟨0x1CF8, 0x1CF9, 4⟩, ⟨0x1DC0, 0x1DFF, 4⟩, ⟨0x200B, 0x200B, 3⟩,
  ⟨0x200C, 0x200C, 4⟩, ⟨0x200D, 0x200D, 5⟩, ⟨0x200E, 0x200F, 3⟩, ⟨0x2028, 0x2028, 3⟩,
  ⟨0x2029, 0x2029, 3⟩, ⟨0x202A, 0x202E, 3⟩, ⟨0x203C, 0x203C, 14⟩, ⟨0x2049, 0x2049, 14⟩,
  ⟨0x2060, 0x2064, 3⟩, ⟨0x2065, 0x2065, 3⟩, ⟨0x2066, 0x206F, 3⟩, ⟨0x20D0, 0x20DC, 4⟩,
  ⟨0x20DD, 0x20E0, 4⟩, ⟨0x20E1, 0x20E1, 4⟩, ⟨0x20E2, 0x20E4, 4⟩, ⟨0x20E5, 0x20F0, 4⟩,
  ⟨0x2122, 0x2122, 14⟩, ⟨0x2139, 0x2139, 14⟩, ⟨0x2194, 0x2199, 14⟩, ⟨0x21A9, 0x21AA, 14⟩,
  ⟨0x231A, 0x231B, 14⟩, ⟨0x2328, 0x2328, 14⟩, ⟨0x2388, 0x2388, 14⟩, ⟨0x23CF, 0x23CF, 14⟩,
  ⟨0x23E9, 0x23EC, 14⟩, ⟨0x23ED, 0x23EE, 14⟩, ⟨0x23EF, 0x23EF, 14⟩, ⟨0x23F0, 0x23F0, 14⟩,
  ⟨0x23F1, 0x23F2, 14⟩, ⟨0x23F3, 0x23F3, 14⟩, ⟨0x23F8, 0x23FA, 14⟩, ⟨0x24C2, 0x24C2, 14⟩,
  ⟨0x25AA, 0x25AB, 14⟩, ⟨0x25B6, 0x25B6, 14⟩, ⟨0x25C0, 0x25C0, 14⟩, ⟨0x25FB, 0x25FE, 14⟩,
  ⟨0x2600, 0x2601, 14⟩, ⟨0x2602, 0x2603, 14⟩, ⟨0x2604, 0x2604, 14⟩, ⟨0x2605, 0x2605, 14⟩,
  ⟨0x2607, 0x260D, 14⟩, ⟨0x260E, 0x260E, 14⟩, ⟨0x260F, 0x2610, 14⟩, ⟨0x2611, 0x2611, 14⟩,
  ⟨0x2612, 0x2612, 14⟩, ⟨0x2614, 0x2615, 14⟩, ⟨0x2616, 0x2617, 14⟩, ⟨0x2618, 0x2618, 14⟩,
  ⟨0x2619, 0x261C, 14⟩, ⟨0x261D, 0x261D, 14⟩, ⟨0x261E, 0x261F, 14⟩, ⟨0x2620, 0x2620, 14⟩,
  ⟨0x2621, 0x2621, 14⟩, ⟨0x2622, 0x2623, 14⟩, ⟨0x2624, 0x2625, 14⟩, ⟨0x2626, 0x2626, 14⟩,
  ⟨0x2627, 0x2629, 14⟩, ⟨0x262A, 0x262A, 14⟩, ⟨0x262B, 0x262D, 14⟩, ⟨0x262E, 0x262E, 14⟩,
  ⟨0x262F, 0x262F, 14⟩, ⟨0x2630, 0x2637, 14⟩, ⟨0x2638, 0x2639, 14⟩, ⟨0x263A, 0x263A, 14⟩,
  ⟨0x263B, 0x263F, 14⟩, ⟨0x2640, 0x2640, 14⟩, ⟨0x2641, 0x2641, 14⟩, ⟨0x2642, 0x2642, 14⟩,
  ⟨0x2643, 0x2647, 14⟩, ⟨0x2648, 0x2653, 14⟩, ⟨0x2654, 0x265E, 14⟩, ⟨0x265F, 0x265F, 14⟩,
  ⟨0x2660, 0x2660, 14⟩, ⟨0x2661, 0x2662, 14⟩, ⟨0x2663, 0x2663, 14⟩, ⟨0x2664, 0x2664, 14⟩,
  ⟨0x2665, 0x2666, 14⟩, ⟨0x2667, 0x2667, 14⟩, ⟨0x2668, 0x2668, 14⟩, ⟨0x2669, 0x267A, 14⟩,
  ⟨0x267B, 0x267B, 14⟩, ⟨0x267C, 0x267D, 14⟩, ⟨0x267E, 0x267E, 14⟩, ⟨0x267F, 0x267F, 14⟩,
  ⟨0x2680, 0x2685, 14⟩, ⟨0x2690, 0x2691, 14⟩, ⟨0x2692, 0x2692, 14⟩, ⟨0x2693, 0x2693, 14⟩,
  ⟨0x2694, 0x2694, 14⟩, ⟨0x2695, 0x2695, 14⟩, ⟨0x2696, 0x2697, 14⟩, ⟨0x2698, 0x2698, 14⟩,
  ⟨0x2699, 0x2699, 14⟩, ⟨0x269A, 0x269A, 14⟩, ⟨0x269B, 0x269C, 14⟩, ⟨0x269D, 0x269F, 14⟩,
  ⟨0x26A0, 0x26A1, 14⟩, ⟨0x26A2, 0x26A6, 14⟩, ⟨0x26A7, 0x26A7, 14⟩, ⟨0x26A8, 0x26A9, 14⟩,
  ⟨0x26AA, 0x26AB, 14⟩, ⟨0x26AC, 0x26AF, 14⟩, ⟨0x26B0, 0x26B1, 14⟩, ⟨0x26B2, 0x26BC, 14⟩,
  ⟨0x26BD, 0x26BE, 14⟩, ⟨0x26BF, 0x26C3, 14⟩, ⟨0x26C4, 0x26C5, 14⟩, ⟨0x26C6, 0x26C7, 14⟩,
  ⟨0x26C8, 0x26C8, 14⟩, ⟨0x26C9, 0x26CD, 14⟩, ⟨0x26CE, 0x26CE, 14⟩, ⟨0x26CF, 0x26CF, 14⟩,
  ⟨0x26D0, 0x26D0, 14⟩, ⟨0x26D1, 0x26D1, 14⟩, ⟨0x26D2, 0x26D2, 14⟩, ⟨0x26D3, 0x26D3, 14⟩,
  ⟨0x26D4, 0x26D4, 14⟩, ⟨0x26D5, 0x26E8, 14⟩, ⟨0x26E9, 0x26E9, 14⟩, ⟨0x26EA, 0x26EA, 14⟩,
  ⟨0x26EB, 0x26EF, 14⟩, ⟨0x26F0, 0x26F1, 14⟩, ⟨0x26F2, 0x26F3, 14⟩, ⟨0x26F4, 0x26F4, 14⟩,
  ⟨0x26F5, 0x26F5, 14⟩, ⟨0x26F6, 0x26F6, 14⟩, ⟨0x26F7, 0x26F9, 14⟩, ⟨0x26FA, 0x26FA, 14⟩,
  ⟨0x26FB, 0x26FC, 14⟩, ⟨0x26FD, 0x26FD, 14⟩, ⟨0x26FE, 0x2701, 14⟩, ⟨0x2702, 0x2702, 14⟩,
  ⟨0x2703, 0x2704, 14⟩, ⟨0x2705, 0x2705, 14⟩, ⟨0x2708, 0x270C, 14⟩, ⟨0x270D, 0x270D, 14⟩,
  ⟨0x270E, 0x270E, 14⟩, ⟨0x270F, 0x270F, 14⟩, ⟨0x2710, 0x2711, 14⟩, ⟨0x2712, 0x2712, 14⟩,
  ⟨0x2714, 0x2714, 14⟩, ⟨0x2716, 0x2716, 14⟩, ⟨0x271D, 0x271D, 14⟩, ⟨0x2721, 0x2721, 14⟩,
  ⟨0x2728, 0x2728, 14⟩, ⟨0x2733, 0x2734, 14⟩, ⟨0x2744, 0x2744, 14⟩, ⟨0x2747, 0x2747, 14⟩,
  ⟨0x274C, 0x274C, 14⟩, ⟨0x274E, 0x274E, 14⟩, ⟨0x2753, 0x2755, 14⟩, ⟨0x2757, 0x2757, 14⟩,
  ⟨0x2763, 0x2763, 14⟩, ⟨0x2764, 0x2764, 14⟩, ⟨0x2765, 0x2767, 14⟩, ⟨0x2795, 0x2797, 14⟩,
  ⟨0x27A1, 0x27A1, 14⟩, ⟨0x27B0, 0x27B0, 14⟩, ⟨0x27BF, 0x27BF, 14⟩, ⟨0x2934, 0x2935, 14⟩,
  ⟨0x2B05, 0x2B07, 14⟩, ⟨0x2B1B, 0x2B1C, 14⟩, ⟨0x2B50, 0x2B50, 14⟩, ⟨0x2B55, 0x2B55, 14⟩,
  ⟨0x2CEF, 0x2CF1, 4⟩, ⟨0x2D7F, 0x2D7F, 4⟩, ⟨0x2DE0, 0x2DFF, 4⟩, ⟨0x302A, 0x302D, 4⟩,
  ⟨0x302E, 0x302F, 4⟩, ⟨0x3030, 0x3030, 14⟩, ⟨0x303D, 0x303D, 14⟩, ⟨0x3099, 0x309A, 4⟩,
  ⟨0x3297, 0x3297, 14⟩, ⟨0x3299, 0x3299, 14⟩, ⟨0xA66F, 0xA66F, 4⟩, ⟨0xA670, 0xA672, 4⟩,
  ⟨0xA674, 0xA67D, 4⟩, ⟨0xA69E, 0xA69F, 4⟩, ⟨0xA6F0, 0xA6F1, 4⟩, ⟨0xA802, 0xA802, 4⟩,
  ⟨0xA806, 0xA806, 4⟩, ⟨0xA80B, 0xA80B, 4⟩, ⟨0xA823, 0xA824, 8⟩, ⟨0xA825, 0xA826, 4⟩,
  ⟨0xA827, 0xA827, 8⟩, ⟨0xA82C, 0xA82C, 4⟩, ⟨0xA880, 0xA881, 8⟩, ⟨0xA8B4, 0xA8C3, 8⟩,
  ⟨0xA8C4, 0xA8C5, 4⟩, ⟨0xA8E0, 0xA8F1, 4⟩, ⟨0xA8FF, 0xA8FF, 4⟩, ⟨0xA926, 0xA92D, 4⟩,
  ⟨0xA947, 0xA951, 4⟩, ⟨0xA952, 0xA953, 8⟩, ⟨0xA960, 0xA97C, 9⟩, ⟨0xA980, 0xA982, 4⟩,
  ⟨0xA983, 0xA983, 8⟩, ⟨0xA9B3, 0xA9B3, 4⟩, ⟨0xA9B4, 0xA9B5, 8⟩, ⟨0xA9B6, 0xA9B9, 4⟩,
  ⟨0xA9BA, 0xA9BB, 8⟩, ⟨0xA9BC, 0xA9BD, 4⟩, ⟨0xA9BE, 0xA9C0, 8⟩, ⟨0xA9E5, 0xA9E5, 4⟩,
  ⟨0xAA29, 0xAA2E, 4⟩, ⟨0xAA2F, 0xAA30, 8⟩, ⟨0xAA31, 0xAA32, 4⟩, ⟨0xAA33, 0xAA34, 8⟩,
  ⟨0xAA35, 0xAA36, 4⟩, ⟨0xAA43, 0xAA43, 4⟩, ⟨0xAA4C, 0xAA4C, 4⟩, ⟨0xAA4D, 0xAA4D, 8⟩,
  ⟨0xAA7C, 0xAA7C, 4⟩, ⟨0xAAB0, 0xAAB0, 4⟩, ⟨0xAAB2, 0xAAB4, 4⟩, ⟨0xAAB7, 0xAAB8, 4⟩,
  ⟨0xAABE, 0xAABF, 4⟩, ⟨0xAAC1, 0xAAC1, 4⟩, ⟨0xAAEB, 0xAAEB, 8⟩, ⟨0xAAEC, 0xAAED, 4⟩,
  ⟨0xAAEE, 0xAAEF, 8⟩, ⟨0xAAF5, 0xAAF5, 8⟩]

/-- Part 2 of `graphemeTable`, grapheme_cluster_break.hpp:244-871. -/
def graphemeTable2 : List Range := [
  ⟨0xAAF6, 0xAAF6, 4⟩, ⟨0xABE3, 0xABE4, 8⟩, ⟨0xABE5, 0xABE5, 4⟩, ⟨0xABE6, 0xABE7, 8⟩,
  ⟨0xABE8, 0xABE8, 4⟩, ⟨0xABE9, 0xABEA, 8⟩, ⟨0xABEC, 0xABEC, 8⟩, ⟨0xABED, 0xABED, 4⟩,
  ⟨0xAC00, 0xAC00, 12⟩, ⟨0xAC01, 0xAC1B, 13⟩, ⟨0xAC1C, 0xAC1C, 12⟩, ⟨0xAC1D, 0xAC37, 13⟩,
  ⟨0xAC38, 0xAC38, 12⟩, ⟨0xAC39, 0xAC53, 13⟩, ⟨0xAC54, 0xAC54, 12⟩, ⟨0xAC55, 0xAC6F, 13⟩,
  ⟨0xAC70, 0xAC70, 12⟩, ⟨0xAC71, 0xAC8B, 13⟩, ⟨0xAC8C, 0xAC8C, 12⟩, ⟨0xAC8D, 0xACA7, 13⟩,
  ⟨0xACA8, 0xACA8, 12⟩, ⟨0xACA9, 0xACC3, 13⟩, ⟨0xACC4, 0xACC4, 12⟩, ⟨0xACC5, 0xACDF, 13⟩,
  ⟨0xACE0, 0xACE0, 12⟩, ⟨0xACE1, 0xACFB, 13⟩, ⟨0xACFC, 0xACFC, 12⟩, ⟨0xACFD, 0xAD17, 13⟩,
  ⟨0xAD18, 0xAD18, 12⟩, ⟨0xAD19, 0xAD33, 13⟩, ⟨0xAD34, 0xAD34, 12⟩, ⟨0xAD35, 0xAD4F, 13⟩,
  ⟨0xAD50, 0xAD50, 12⟩, ⟨0xAD51, 0xAD6B, 13⟩, ⟨0xAD6C, 0xAD6C, 12⟩, ⟨0xAD6D, 0xAD87, 13⟩,
  ⟨0xAD88, 0xAD88, 12⟩, ⟨0xAD89, 0xADA3, 13⟩, ⟨0xADA4, 0xADA4, 12⟩, ⟨0xADA5, 0xADBF, 13⟩,
  ⟨0xADC0, 0xADC0, 12⟩, ⟨0xADC1, 0xADDB, 13⟩, ⟨0xADDC, 0xADDC, 12⟩, ⟨0xADDD, 0xADF7, 13⟩,
  ⟨0xADF8, 0xADF8, 12⟩, ⟨0xADF9, 0xAE13, 13⟩, ⟨0xAE14, 0xAE14, 12⟩, ⟨0xAE15, 0xAE2F, 13⟩,
  ⟨0xAE30, 0xAE30, 12⟩, ⟨0xAE31, 0xAE4B, 13⟩, ⟨0xAE4C, 0xAE4C, 12⟩, ⟨0xAE4D, 0xAE67, 13⟩,
  ⟨0xAE68, 0xAE68, 12⟩, ⟨0xAE69, 0xAE83, 13⟩, ⟨0xAE84, 0xAE84, 12⟩, ⟨0xAE85, 0xAE9F, 13⟩,
  ⟨0xAEA0, 0xAEA0, 12⟩, ⟨0xAEA1, 0xAEBB, 13⟩, ⟨0xAEBC, 0xAEBC, 12⟩, ⟨0xAEBD, 0xAED7, 13⟩,
  ⟨0xAED8, 0xAED8, 12⟩, ⟨0xAED9, 0xAEF3, 13⟩, ⟨0xAEF4, 0xAEF4, 12⟩, ⟨0xAEF5, 0xAF0F, 13⟩,
  ⟨0xAF10, 0xAF10, 12⟩, ⟨0xAF11, 0xAF2B, 13⟩, ⟨0xAF2C, 0xAF2C, 12⟩, ⟨0xAF2D, 0xAF47, 13⟩,
  ⟨0xAF48, 0xAF48, 12⟩, ⟨0xAF49, 0xAF63, 13⟩, ⟨0xAF64, 0xAF64, 12⟩, ⟨0xAF65, 0xAF7F, 13⟩,
  ⟨0xAF80, 0xAF80, 12⟩, ⟨0xAF81, 0xAF9B, 13⟩, ⟨0xAF9C, 0xAF9C, 12⟩, ⟨0xAF9D, 0xAFB7, 13⟩,
  ⟨0xAFB8, 0xAFB8, 12⟩, ⟨0xAFB9, 0xAFD3, 13⟩, ⟨0xAFD4, 0xAFD4, 12⟩, ⟨0xAFD5, 0xAFEF, 13⟩,
  ⟨0xAFF0, 0xAFF0, 12⟩, ⟨0xAFF1, 0xB00B, 13⟩, ⟨0xB00C, 0xB00C, 12⟩, ⟨0xB00D, 0xB027, 13⟩,
  ⟨0xB028, 0xB028, 12⟩, ⟨0xB029, 0xB043, 13⟩, ⟨0xB044, 0xB044, 12⟩, ⟨0xB045, 0xB05F, 13⟩,
  ⟨0xB060, 0xB060, 12⟩, ⟨0xB061, 0xB07B, 13⟩, ⟨0xB07C, 0xB07C, 12⟩, ⟨0xB07D, 0xB097, 13⟩,
  ⟨0xB098, 0xB098, 12⟩, ⟨0xB099, 0xB0B3, 13⟩, ⟨0xB0B4, 0xB0B4, 12⟩, ⟨0xB0B5, 0xB0CF, 13⟩,
  ⟨0xB0D0, 0xB0D0, 12⟩, ⟨0xB0D1, 0xB0EB, 13⟩, ⟨0xB0EC, 0xB0EC, 12⟩, ⟨0xB0ED, 0xB107, 13⟩,
  ⟨0xB108, 0xB108, 12⟩, ⟨0xB109, 0xB123, 13⟩, ⟨0xB124, 0xB124, 12⟩, ⟨0xB125, 0xB13F, 13⟩,
  ⟨0xB140, 0xB140, 12⟩, ⟨0xB141, 0xB15B, 13⟩, ⟨0xB15C, 0xB15C, 12⟩, ⟨0xB15D, 0xB177, 13⟩,
  ⟨0xB178, 0xB178, 12⟩, ⟨0xB179, 0xB193, 13⟩, ⟨0xB194, 0xB194, 12⟩, ⟨0xB195, 0xB1AF, 13⟩,
  ⟨0xB1B0, 0xB1B0, 12⟩, ⟨0xB1B1, 0xB1CB, 13⟩, ⟨0xB1CC, 0xB1CC, 12⟩, ⟨0xB1CD, 0xB1E7, 13⟩,
  ⟨0xB1E8, 0xB1E8, 12⟩, ⟨0xB1E9, 0xB203, 13⟩, ⟨0xB204, 0xB204, 12⟩, ⟨0xB205, 0xB21F, 13⟩,
  ⟨0xB220, 0xB220, 12⟩, ⟨0xB221, 0xB23B, 13⟩, ⟨0xB23C, 0xB23C, 12⟩, ⟨0xB23D, 0xB257, 13⟩,
  ⟨0xB258, 0xB258, 12⟩, ⟨0xB259, 0xB273, 13⟩, ⟨0xB274, 0xB274, 12⟩, ⟨0xB275, 0xB28F, 13⟩,
  ⟨0xB290, 0xB290, 12⟩, ⟨0xB291, 0xB2AB, 13⟩, ⟨0xB2AC, 0xB2AC, 12⟩, ⟨0xB2AD, 0xB2C7, 13⟩,
  ⟨0xB2C8, 0xB2C8, 12⟩, ⟨0xB2C9, 0xB2E3, 13⟩, ⟨0xB2E4, 0xB2E4, 12⟩, ⟨0xB2E5, 0xB2FF, 13⟩,
  ⟨0xB300, 0xB300, 12⟩, ⟨0xB301, 0xB31B, 13⟩, ⟨0xB31C, 0xB31C, 12⟩, ⟨0xB31D, 0xB337, 13⟩,
  ⟨0xB338, 0xB338, 12⟩, ⟨0xB339, 0xB353, 13⟩, ⟨0xB354, 0xB354, 12⟩, ⟨0xB355, 0xB36F, 13⟩,
  ⟨0xB370, 0xB370, 12⟩, ⟨0xB371, 0xB38B, 13⟩, ⟨0xB38C, 0xB38C, 12⟩, ⟨0xB38D, 0xB3A7, 13⟩,
  ⟨0xB3A8, 0xB3A8, 12⟩, ⟨0xB3A9, 0xB3C3, 13⟩, ⟨0xB3C4, 0xB3C4, 12⟩, ⟨0xB3C5, 0xB3DF, 13⟩,
  ⟨0xB3E0, 0xB3E0, 12⟩, ⟨0xB3E1, 0xB3FB, 13⟩, ⟨0xB3FC, 0xB3FC, 12⟩, ⟨0xB3FD, 0xB417, 13⟩,
  ⟨0xB418, 0xB418, 12⟩, ⟨0xB419, 0xB433, 13⟩, ⟨0xB434, 0xB434, 12⟩, ⟨0xB435, 0xB44F, 13⟩,
  ⟨0xB450, 0xB450, 12⟩, ⟨0xB451, 0xB46B, 13⟩, ⟨0xB46C, 0xB46C, 12⟩, ⟨0xB46D, 0xB487, 13⟩,
  ⟨0xB488, 0xB488, 12⟩, ⟨0xB489, 0xB4A3, 13⟩, ⟨0xB4A4, 0xB4A4, 12⟩, ⟨0xB4A5, 0xB4BF, 13⟩,
  ⟨0xB4C0, 0xB4C0, 12⟩, ⟨0xB4C1, 0xB4DB, 13⟩, ⟨0xB4DC, 0xB4DC, 12⟩, ⟨0xB4DD, 0xB4F7, 13⟩,
  ⟨0xB4F8, 0xB4F8, 12⟩, ⟨0xB4F9, 0xB513, 13⟩, ⟨0xB514, 0xB514, 12⟩, ⟨0xB515, 0xB52F, 13⟩,
  ⟨0xB530, 0xB530, 12⟩, ⟨0xB531, 0xB54B, 13⟩, ⟨0xB54C, 0xB54C, 12⟩, ⟨0xB54D, 0xB567, 13⟩,
  ⟨0xB568, 0xB568, 12⟩, ⟨0xB569, 0xB583, 13⟩, ⟨0xB584, 0xB584, 12⟩, ⟨0xB585, 0xB59F, 13⟩,
  ⟨0xB5A0, 0xB5A0, 12⟩, ⟨0xB5A1, 0xB5BB, 13⟩, ⟨0xB5BC, 0xB5BC, 12⟩, ⟨0xB5BD, 0xB5D7, 13⟩,
  ⟨0xB5D8, 0xB5D8, 12⟩, ⟨0xB5D9, 0xB5F3, 13⟩, ⟨0xB5F4, 0xB5F4, 12⟩, ⟨0xB5F5, 0xB60F, 13⟩,
  ⟨0xB610, 0xB610, 12⟩, ⟨0xB611, 0xB62B, 13⟩, ⟨0xB62C, 0xB62C, 12⟩, ⟨0xB62D, 0xB647, 13⟩,
  ⟨0xB648, 0xB648, 12⟩, ⟨0xB649, 0xB663, 13⟩, ⟨0xB664, 0xB664, 12⟩, ⟨0xB665, 0xB67F, 13⟩,
  ⟨0xB680, 0xB680, 12⟩, ⟨0xB681, 0xB69B, 13⟩, ⟨0xB69C, 0xB69C, 12⟩, ⟨0xB69D, 0xB6B7, 13⟩,
  ⟨0xB6B8, 0xB6B8, 12⟩, ⟨0xB6B9, 0xB6D3, 13⟩, ⟨0xB6D4, 0xB6D4, 12⟩, ⟨0xB6D5, 0xB6EF, 13⟩,
  ⟨0xB6F0, 0xB6F0, 12⟩, ⟨0xB6F1, 0xB70B, 13⟩, ⟨0xB70C, 0xB70C, 12⟩, ⟨0xB70D, 0xB727, 13⟩,
  ⟨0xB728, 0xB728, 12⟩, ⟨0xB729, 0xB743, 13⟩, ⟨0xB744, 0xB744, 12⟩, ⟨0xB745, 0xB75F, 13⟩,
  ⟨0xB760, 0xB760, 12⟩, ⟨0xB761, 0xB77B, 13⟩, ⟨0xB77C, 0xB77C, 12⟩, ⟨0xB77D, 0xB797, 13⟩,
  ⟨0xB798, 0xB798, 12⟩, ⟨0xB799, 0xB7B3, 13⟩, ⟨0xB7B4, 0xB7B4, 12⟩, ⟨0xB7B5, 0xB7CF, 13⟩,
  ⟨0xB7D0, 0xB7D0, 12⟩, ⟨0xB7D1, 0xB7EB, 13⟩, ⟨0xB7EC, 0xB7EC, 12⟩, ⟨0xB7ED, 0xB807, 13⟩,
  ⟨0xB808, 0xB808, 12⟩, ⟨0xB809, 0xB823, 13⟩, ⟨0xB824, 0xB824, 12⟩, ⟨0xB825, 0xB83F, 13⟩,
  ⟨0xB840, 0xB840, 12⟩, ⟨0xB841, 0xB85B, 13⟩, ⟨0xB85C, 0xB85C, 12⟩, ⟨0xB85D, 0xB877, 13⟩,
  ⟨0xB878, 0xB878, 12⟩, ⟨0xB879, 0xB893, 13⟩, ⟨0xB894, 0xB894, 12⟩, ⟨0xB895, 0xB8AF, 13⟩,
  ⟨0xB8B0, 0xB8B0, 12⟩, ⟨0xB8B1, 0xB8CB, 13⟩, ⟨0xB8CC, 0xB8CC, 12⟩, ⟨0xB8CD, 0xB8E7, 13⟩,
  ⟨0xB8E8, 0xB8E8, 12⟩, ⟨0xB8E9, 0xB903, 13⟩, ⟨0xB904, 0xB904, 12⟩, ⟨0xB905, 0xB91F, 13⟩,
  ⟨0xB920, 0xB920, 12⟩, ⟨0xB921, 0xB93B, 13⟩]

/-- Part 3 of `graphemeTable`, grapheme_cluster_break.hpp:244-871. -/
def graphemeTable3 : List Range := [
  ⟨0xB93C, 0xB93C, 12⟩, ⟨0xB93D, 0xB957, 13⟩, ⟨0xB958, 0xB958, 12⟩, ⟨0xB959, 0xB973, 13⟩,
  ⟨0xB974, 0xB974, 12⟩, ⟨0xB975, 0xB98F, 13⟩, ⟨0xB990, 0xB990, 12⟩, ⟨0xB991, 0xB9AB, 13⟩,
  ⟨0xB9AC, 0xB9AC, 12⟩, ⟨0xB9AD, 0xB9C7, 13⟩, ⟨0xB9C8, 0xB9C8, 12⟩, ⟨0xB9C9, 0xB9E3, 13⟩,
  ⟨0xB9E4, 0xB9E4, 12⟩, ⟨0xB9E5, 0xB9FF, 13⟩, ⟨0xBA00, 0xBA00, 12⟩, ⟨0xBA01, 0xBA1B, 13⟩,
  ⟨0xBA1C, 0xBA1C, 12⟩, ⟨0xBA1D, 0xBA37, 13⟩, ⟨0xBA38, 0xBA38, 12⟩, ⟨0xBA39, 0xBA53, 13⟩,
  ⟨0xBA54, 0xBA54, 12⟩, ⟨0xBA55, 0xBA6F, 13⟩, ⟨0xBA70, 0xBA70, 12⟩, ⟨0xBA71, 0xBA8B, 13⟩,
  ⟨0xBA8C, 0xBA8C, 12⟩, ⟨0xBA8D, 0xBAA7, 13⟩, ⟨0xBAA8, 0xBAA8, 12⟩, ⟨0xBAA9, 0xBAC3, 13⟩,
  ⟨0xBAC4, 0xBAC4, 12⟩, ⟨0xBAC5, 0xBADF, 13⟩, ⟨0xBAE0, 0xBAE0, 12⟩, ⟨0xBAE1, 0xBAFB, 13⟩,
  ⟨0xBAFC, 0xBAFC, 12⟩, ⟨0xBAFD, 0xBB17, 13⟩, ⟨0xBB18, 0xBB18, 12⟩, ⟨0xBB19, 0xBB33, 13⟩,
  ⟨0xBB34, 0xBB34, 12⟩, ⟨0xBB35, 0xBB4F, 13⟩, ⟨0xBB50, 0xBB50, 12⟩, ⟨0xBB51, 0xBB6B, 13⟩,
  ⟨0xBB6C, 0xBB6C, 12⟩, ⟨0xBB6D, 0xBB87, 13⟩, ⟨0xBB88, 0xBB88, 12⟩, ⟨0xBB89, 0xBBA3, 13⟩,
  ⟨0xBBA4, 0xBBA4, 12⟩, ⟨0xBBA5, 0xBBBF, 13⟩, ⟨0xBBC0, 0xBBC0, 12⟩, ⟨0xBBC1, 0xBBDB, 13⟩,
  ⟨0xBBDC, 0xBBDC, 12⟩, ⟨0xBBDD, 0xBBF7, 13⟩, ⟨0xBBF8, 0xBBF8, 12⟩, ⟨0xBBF9, 0xBC13, 13⟩,
  ⟨0xBC14, 0xBC14, 12⟩, ⟨0xBC15, 0xBC2F, 13⟩, ⟨0xBC30, 0xBC30, 12⟩, ⟨0xBC31, 0xBC4B, 13⟩,
  ⟨0xBC4C, 0xBC4C, 12⟩, ⟨0xBC4D, 0xBC67, 13⟩, ⟨0xBC68, 0xBC68, 12⟩, ⟨0xBC69, 0xBC83, 13⟩,
  ⟨0xBC84, 0xBC84, 12⟩, ⟨0xBC85, 0xBC9F, 13⟩, ⟨0xBCA0, 0xBCA0, 12⟩, ⟨0xBCA1, 0xBCBB, 13⟩,
  ⟨0xBCBC, 0xBCBC, 12⟩, ⟨0xBCBD, 0xBCD7, 13⟩, ⟨0xBCD8, 0xBCD8, 12⟩, ⟨0xBCD9, 0xBCF3, 13⟩,
  ⟨0xBCF4, 0xBCF4, 12⟩, ⟨0xBCF5, 0xBD0F, 13⟩, ⟨0xBD10, 0xBD10, 12⟩, ⟨0xBD11, 0xBD2B, 13⟩,
  ⟨0xBD2C, 0xBD2C, 12⟩, ⟨0xBD2D, 0xBD47, 13⟩, ⟨0xBD48, 0xBD48, 12⟩, ⟨0xBD49, 0xBD63, 13⟩,
  ⟨0xBD64, 0xBD64, 12⟩, ⟨0xBD65, 0xBD7F, 13⟩, ⟨0xBD80, 0xBD80, 12⟩, ⟨0xBD81, 0xBD9B, 13⟩,
  ⟨0xBD9C, 0xBD9C, 12⟩, ⟨0xBD9D, 0xBDB7, 13⟩, ⟨0xBDB8, 0xBDB8, 12⟩, ⟨0xBDB9, 0xBDD3, 13⟩,
  ⟨0xBDD4, 0xBDD4, 12⟩, ⟨0xBDD5, 0xBDEF, 13⟩, ⟨0xBDF0, 0xBDF0, 12⟩, ⟨0xBDF1, 0xBE0B, 13⟩,
  ⟨0xBE0C, 0xBE0C, 12⟩, ⟨0xBE0D, 0xBE27, 13⟩, ⟨0xBE28, 0xBE28, 12⟩, ⟨0xBE29, 0xBE43, 13⟩,
  ⟨0xBE44, 0xBE44, 12⟩, ⟨0xBE45, 0xBE5F, 13⟩, ⟨0xBE60, 0xBE60, 12⟩, ⟨0xBE61, 0xBE7B, 13⟩,
  ⟨0xBE7C, 0xBE7C, 12⟩, ⟨0xBE7D, 0xBE97, 13⟩, ⟨0xBE98, 0xBE98, 12⟩, ⟨0xBE99, 0xBEB3, 13⟩,
  ⟨0xBEB4, 0xBEB4, 12⟩, ⟨0xBEB5, 0xBECF, 13⟩, ⟨0xBED0, 0xBED0, 12⟩, ⟨0xBED1, 0xBEEB, 13⟩,
  ⟨0xBEEC, 0xBEEC, 12⟩, ⟨0xBEED, 0xBF07, 13⟩, ⟨0xBF08, 0xBF08, 12⟩, ⟨0xBF09, 0xBF23, 13⟩,
  ⟨0xBF24, 0xBF24, 12⟩, ⟨0xBF25, 0xBF3F, 13⟩, ⟨0xBF40, 0xBF40, 12⟩, ⟨0xBF41, 0xBF5B, 13⟩,
  ⟨0xBF5C, 0xBF5C, 12⟩, ⟨0xBF5D, 0xBF77, 13⟩, ⟨0xBF78, 0xBF78, 12⟩, ⟨0xBF79, 0xBF93, 13⟩,
  ⟨0xBF94, 0xBF94, 12⟩, ⟨0xBF95, 0xBFAF, 13⟩, ⟨0xBFB0, 0xBFB0, 12⟩, ⟨0xBFB1, 0xBFCB, 13⟩,
  ⟨0xBFCC, 0xBFCC, 12⟩, ⟨0xBFCD, 0xBFE7, 13⟩, ⟨0xBFE8, 0xBFE8, 12⟩, ⟨0xBFE9, 0xC003, 13⟩,
  ⟨0xC004, 0xC004, 12⟩, ⟨0xC005, 0xC01F, 13⟩, ⟨0xC020, 0xC020, 12⟩, ⟨0xC021, 0xC03B, 13⟩,
  ⟨0xC03C, 0xC03C, 12⟩, ⟨0xC03D, 0xC057, 13⟩, ⟨0xC058, 0xC058, 12⟩, ⟨0xC059, 0xC073, 13⟩,
  ⟨0xC074, 0xC074, 12⟩, ⟨0xC075, 0xC08F, 13⟩, ⟨0xC090, 0xC090, 12⟩, ⟨0xC091, 0xC0AB, 13⟩,
  ⟨0xC0AC, 0xC0AC, 12⟩, ⟨0xC0AD, 0xC0C7, 13⟩, ⟨0xC0C8, 0xC0C8, 12⟩, ⟨0xC0C9, 0xC0E3, 13⟩,
  ⟨0xC0E4, 0xC0E4, 12⟩, ⟨0xC0E5, 0xC0FF, 13⟩, ⟨0xC100, 0xC100, 12⟩, ⟨0xC101, 0xC11B, 13⟩,
  ⟨0xC11C, 0xC11C, 12⟩, ⟨0xC11D, 0xC137, 13⟩, ⟨0xC138, 0xC138, 12⟩, ⟨0xC139, 0xC153, 13⟩,
  ⟨0xC154, 0xC154, 12⟩, ⟨0xC155, 0xC16F, 13⟩, ⟨0xC170, 0xC170, 12⟩, ⟨0xC171, 0xC18B, 13⟩,
  ⟨0xC18C, 0xC18C, 12⟩, ⟨0xC18D, 0xC1A7, 13⟩, ⟨0xC1A8, 0xC1A8, 12⟩, ⟨0xC1A9, 0xC1C3, 13⟩,
  ⟨0xC1C4, 0xC1C4, 12⟩, ⟨0xC1C5, 0xC1DF, 13⟩, ⟨0xC1E0, 0xC1E0, 12⟩, ⟨0xC1E1, 0xC1FB, 13⟩,
  ⟨0xC1FC, 0xC1FC, 12⟩, ⟨0xC1FD, 0xC217, 13⟩, ⟨0xC218, 0xC218, 12⟩, ⟨0xC219, 0xC233, 13⟩,
  ⟨0xC234, 0xC234, 12⟩, ⟨0xC235, 0xC24F, 13⟩, ⟨0xC250, 0xC250, 12⟩, ⟨0xC251, 0xC26B, 13⟩,
  ⟨0xC26C, 0xC26C, 12⟩, ⟨0xC26D, 0xC287, 13⟩, ⟨0xC288, 0xC288, 12⟩, ⟨0xC289, 0xC2A3, 13⟩,
  ⟨0xC2A4, 0xC2A4, 12⟩, ⟨0xC2A5, 0xC2BF, 13⟩, ⟨0xC2C0, 0xC2C0, 12⟩, ⟨0xC2C1, 0xC2DB, 13⟩,
  ⟨0xC2DC, 0xC2DC, 12⟩, ⟨0xC2DD, 0xC2F7, 13⟩, ⟨0xC2F8, 0xC2F8, 12⟩, ⟨0xC2F9, 0xC313, 13⟩,
  ⟨0xC314, 0xC314, 12⟩, ⟨0xC315, 0xC32F, 13⟩, ⟨0xC330, 0xC330, 12⟩, ⟨0xC331, 0xC34B, 13⟩,
  ⟨0xC34C, 0xC34C, 12⟩, ⟨0xC34D, 0xC367, 13⟩, ⟨0xC368, 0xC368, 12⟩, ⟨0xC369, 0xC383, 13⟩,
  ⟨0xC384, 0xC384, 12⟩, ⟨0xC385, 0xC39F, 13⟩, ⟨0xC3A0, 0xC3A0, 12⟩, ⟨0xC3A1, 0xC3BB, 13⟩,
  ⟨0xC3BC, 0xC3BC, 12⟩, ⟨0xC3BD, 0xC3D7, 13⟩, ⟨0xC3D8, 0xC3D8, 12⟩, ⟨0xC3D9, 0xC3F3, 13⟩,
  ⟨0xC3F4, 0xC3F4, 12⟩, ⟨0xC3F5, 0xC40F, 13⟩, ⟨0xC410, 0xC410, 12⟩, ⟨0xC411, 0xC42B, 13⟩,
  ⟨0xC42C, 0xC42C, 12⟩, ⟨0xC42D, 0xC447, 13⟩, ⟨0xC448, 0xC448, 12⟩, ⟨0xC449, 0xC463, 13⟩,
  ⟨0xC464, 0xC464, 12⟩, ⟨0xC465, 0xC47F, 13⟩, ⟨0xC480, 0xC480, 12⟩, ⟨0xC481, 0xC49B, 13⟩,
  ⟨0xC49C, 0xC49C, 12⟩, ⟨0xC49D, 0xC4B7, 13⟩, ⟨0xC4B8, 0xC4B8, 12⟩, ⟨0xC4B9, 0xC4D3, 13⟩,
  ⟨0xC4D4, 0xC4D4, 12⟩, ⟨0xC4D5, 0xC4EF, 13⟩, ⟨0xC4F0, 0xC4F0, 12⟩, ⟨0xC4F1, 0xC50B, 13⟩,
  ⟨0xC50C, 0xC50C, 12⟩, ⟨0xC50D, 0xC527, 13⟩, ⟨0xC528, 0xC528, 12⟩, ⟨0xC529, 0xC543, 13⟩,
  ⟨0xC544, 0xC544, 12⟩, ⟨0xC545, 0xC55F, 13⟩, ⟨0xC560, 0xC560, 12⟩, ⟨0xC561, 0xC57B, 13⟩,
  ⟨0xC57C, 0xC57C, 12⟩, ⟨0xC57D, 0xC597, 13⟩, ⟨0xC598, 0xC598, 12⟩, ⟨0xC599, 0xC5B3, 13⟩,
  ⟨0xC5B4, 0xC5B4, 12⟩, ⟨0xC5B5, 0xC5CF, 13⟩, ⟨0xC5D0, 0xC5D0, 12⟩, ⟨0xC5D1, 0xC5EB, 13⟩,
  ⟨0xC5EC, 0xC5EC, 12⟩, ⟨0xC5ED, 0xC607, 13⟩, ⟨0xC608, 0xC608, 12⟩, ⟨0xC609, 0xC623, 13⟩,
  ⟨0xC624, 0xC624, 12⟩, ⟨0xC625, 0xC63F, 13⟩, ⟨0xC640, 0xC640, 12⟩, ⟨0xC641, 0xC65B, 13⟩,
  ⟨0xC65C, 0xC65C, 12⟩, ⟨0xC65D, 0xC677, 13⟩, ⟨0xC678, 0xC678, 12⟩, ⟨0xC679, 0xC693, 13⟩,
  ⟨0xC694, 0xC694, 12⟩, ⟨0xC695, 0xC6AF, 13⟩, ⟨0xC6B0, 0xC6B0, 12⟩, ⟨0xC6B1, 0xC6CB, 13⟩,
  ⟨0xC6CC, 0xC6CC, 12⟩, ⟨0xC6CD, 0xC6E7, 13⟩]

/-- Part 4 of `graphemeTable`, grapheme_cluster_break.hpp:244-871. -/
def graphemeTable4 : List Range := [
  ⟨0xC6E8, 0xC6E8, 12⟩, ⟨0xC6E9, 0xC703, 13⟩, ⟨0xC704, 0xC704, 12⟩, ⟨0xC705, 0xC71F, 13⟩,
  ⟨0xC720, 0xC720, 12⟩, ⟨0xC721, 0xC73B, 13⟩, ⟨0xC73C, 0xC73C, 12⟩, ⟨0xC73D, 0xC757, 13⟩,
  ⟨0xC758, 0xC758, 12⟩, ⟨0xC759, 0xC773, 13⟩, ⟨0xC774, 0xC774, 12⟩, ⟨0xC775, 0xC78F, 13⟩,
  ⟨0xC790, 0xC790, 12⟩, ⟨0xC791, 0xC7AB, 13⟩, ⟨0xC7AC, 0xC7AC, 12⟩, ⟨0xC7AD, 0xC7C7, 13⟩,
  ⟨0xC7C8, 0xC7C8, 12⟩, ⟨0xC7C9, 0xC7E3, 13⟩, ⟨0xC7E4, 0xC7E4, 12⟩, ⟨0xC7E5, 0xC7FF, 13⟩,
  ⟨0xC800, 0xC800, 12⟩, ⟨0xC801, 0xC81B, 13⟩, ⟨0xC81C, 0xC81C, 12⟩, ⟨0xC81D, 0xC837, 13⟩,
  ⟨0xC838, 0xC838, 12⟩, ⟨0xC839, 0xC853, 13⟩, ⟨0xC854, 0xC854, 12⟩, ⟨0xC855, 0xC86F, 13⟩,
  ⟨0xC870, 0xC870, 12⟩, ⟨0xC871, 0xC88B, 13⟩, ⟨0xC88C, 0xC88C, 12⟩, ⟨0xC88D, 0xC8A7, 13⟩,
  ⟨0xC8A8, 0xC8A8, 12⟩, ⟨0xC8A9, 0xC8C3, 13⟩, ⟨0xC8C4, 0xC8C4, 12⟩, ⟨0xC8C5, 0xC8DF, 13⟩,
  ⟨0xC8E0, 0xC8E0, 12⟩, ⟨0xC8E1, 0xC8FB, 13⟩, ⟨0xC8FC, 0xC8FC, 12⟩, ⟨0xC8FD, 0xC917, 13⟩,
  ⟨0xC918, 0xC918, 12⟩, ⟨0xC919, 0xC933, 13⟩, ⟨0xC934, 0xC934, 12⟩, ⟨0xC935, 0xC94F, 13⟩,
  ⟨0xC950, 0xC950, 12⟩, ⟨0xC951, 0xC96B, 13⟩, ⟨0xC96C, 0xC96C, 12⟩, ⟨0xC96D, 0xC987, 13⟩,
  ⟨0xC988, 0xC988, 12⟩, ⟨0xC989, 0xC9A3, 13⟩, ⟨0xC9A4, 0xC9A4, 12⟩, ⟨0xC9A5, 0xC9BF, 13⟩,
  ⟨0xC9C0, 0xC9C0, 12⟩, ⟨0xC9C1, 0xC9DB, 13⟩, ⟨0xC9DC, 0xC9DC, 12⟩, ⟨0xC9DD, 0xC9F7, 13⟩,
  ⟨0xC9F8, 0xC9F8, 12⟩, ⟨0xC9F9, 0xCA13, 13⟩, ⟨0xCA14, 0xCA14, 12⟩, ⟨0xCA15, 0xCA2F, 13⟩,
  ⟨0xCA30, 0xCA30, 12⟩, ⟨0xCA31, 0xCA4B, 13⟩, ⟨0xCA4C, 0xCA4C, 12⟩, ⟨0xCA4D, 0xCA67, 13⟩,
  ⟨0xCA68, 0xCA68, 12⟩, ⟨0xCA69, 0xCA83, 13⟩, ⟨0xCA84, 0xCA84, 12⟩, ⟨0xCA85, 0xCA9F, 13⟩,
  ⟨0xCAA0, 0xCAA0, 12⟩, ⟨0xCAA1, 0xCABB, 13⟩, ⟨0xCABC, 0xCABC, 12⟩, ⟨0xCABD, 0xCAD7, 13⟩,
  ⟨0xCAD8, 0xCAD8, 12⟩, ⟨0xCAD9, 0xCAF3, 13⟩, ⟨0xCAF4, 0xCAF4, 12⟩, ⟨0xCAF5, 0xCB0F, 13⟩,
  ⟨0xCB10, 0xCB10, 12⟩, ⟨0xCB11, 0xCB2B, 13⟩, ⟨0xCB2C, 0xCB2C, 12⟩, ⟨0xCB2D, 0xCB47, 13⟩,
  ⟨0xCB48, 0xCB48, 12⟩, ⟨0xCB49, 0xCB63, 13⟩, ⟨0xCB64, 0xCB64, 12⟩, ⟨0xCB65, 0xCB7F, 13⟩,
  ⟨0xCB80, 0xCB80, 12⟩, ⟨0xCB81, 0xCB9B, 13⟩, ⟨0xCB9C, 0xCB9C, 12⟩, ⟨0xCB9D, 0xCBB7, 13⟩,
  ⟨0xCBB8, 0xCBB8, 12⟩, ⟨0xCBB9, 0xCBD3, 13⟩, ⟨0xCBD4, 0xCBD4, 12⟩, ⟨0xCBD5, 0xCBEF, 13⟩,
  ⟨0xCBF0, 0xCBF0, 12⟩, ⟨0xCBF1, 0xCC0B, 13⟩, ⟨0xCC0C, 0xCC0C, 12⟩, ⟨0xCC0D, 0xCC27, 13⟩,
  ⟨0xCC28, 0xCC28, 12⟩, ⟨0xCC29, 0xCC43, 13⟩, ⟨0xCC44, 0xCC44, 12⟩, ⟨0xCC45, 0xCC5F, 13⟩,
  ⟨0xCC60, 0xCC60, 12⟩, ⟨0xCC61, 0xCC7B, 13⟩, ⟨0xCC7C, 0xCC7C, 12⟩, ⟨0xCC7D, 0xCC97, 13⟩,
  ⟨0xCC98, 0xCC98, 12⟩, ⟨0xCC99, 0xCCB3, 13⟩, ⟨0xCCB4, 0xCCB4, 12⟩, ⟨0xCCB5, 0xCCCF, 13⟩,
  ⟨0xCCD0, 0xCCD0, 12⟩, ⟨0xCCD1, 0xCCEB, 13⟩, ⟨0xCCEC, 0xCCEC, 12⟩, ⟨0xCCED, 0xCD07, 13⟩,
  ⟨0xCD08, 0xCD08, 12⟩, ⟨0xCD09, 0xCD23, 13⟩, ⟨0xCD24, 0xCD24, 12⟩, ⟨0xCD25, 0xCD3F, 13⟩,
  ⟨0xCD40, 0xCD40, 12⟩, ⟨0xCD41, 0xCD5B, 13⟩, ⟨0xCD5C, 0xCD5C, 12⟩, ⟨0xCD5D, 0xCD77, 13⟩,
  ⟨0xCD78, 0xCD78, 12⟩, ⟨0xCD79, 0xCD93, 13⟩, ⟨0xCD94, 0xCD94, 12⟩, ⟨0xCD95, 0xCDAF, 13⟩,
  ⟨0xCDB0, 0xCDB0, 12⟩, ⟨0xCDB1, 0xCDCB, 13⟩, ⟨0xCDCC, 0xCDCC, 12⟩, ⟨0xCDCD, 0xCDE7, 13⟩,
  ⟨0xCDE8, 0xCDE8, 12⟩, ⟨0xCDE9, 0xCE03, 13⟩, ⟨0xCE04, 0xCE04, 12⟩, ⟨0xCE05, 0xCE1F, 13⟩,
  ⟨0xCE20, 0xCE20, 12⟩, ⟨0xCE21, 0xCE3B, 13⟩, ⟨0xCE3C, 0xCE3C, 12⟩, ⟨0xCE3D, 0xCE57, 13⟩,
  ⟨0xCE58, 0xCE58, 12⟩, ⟨0xCE59, 0xCE73, 13⟩, ⟨0xCE74, 0xCE74, 12⟩, ⟨0xCE75, 0xCE8F, 13⟩,
  ⟨0xCE90, 0xCE90, 12⟩, ⟨0xCE91, 0xCEAB, 13⟩, ⟨0xCEAC, 0xCEAC, 12⟩, ⟨0xCEAD, 0xCEC7, 13⟩,
  ⟨0xCEC8, 0xCEC8, 12⟩, ⟨0xCEC9, 0xCEE3, 13⟩, ⟨0xCEE4, 0xCEE4, 12⟩, ⟨0xCEE5, 0xCEFF, 13⟩,
  ⟨0xCF00, 0xCF00, 12⟩, ⟨0xCF01, 0xCF1B, 13⟩, ⟨0xCF1C, 0xCF1C, 12⟩, ⟨0xCF1D, 0xCF37, 13⟩,
  ⟨0xCF38, 0xCF38, 12⟩, ⟨0xCF39, 0xCF53, 13⟩, ⟨0xCF54, 0xCF54, 12⟩, ⟨0xCF55, 0xCF6F, 13⟩,
  ⟨0xCF70, 0xCF70, 12⟩, ⟨0xCF71, 0xCF8B, 13⟩, ⟨0xCF8C, 0xCF8C, 12⟩, ⟨0xCF8D, 0xCFA7, 13⟩,
  ⟨0xCFA8, 0xCFA8, 12⟩, ⟨0xCFA9, 0xCFC3, 13⟩, ⟨0xCFC4, 0xCFC4, 12⟩, ⟨0xCFC5, 0xCFDF, 13⟩,
  ⟨0xCFE0, 0xCFE0, 12⟩, ⟨0xCFE1, 0xCFFB, 13⟩, ⟨0xCFFC, 0xCFFC, 12⟩, ⟨0xCFFD, 0xD017, 13⟩,
  ⟨0xD018, 0xD018, 12⟩, ⟨0xD019, 0xD033, 13⟩, ⟨0xD034, 0xD034, 12⟩, ⟨0xD035, 0xD04F, 13⟩,
  ⟨0xD050, 0xD050, 12⟩, ⟨0xD051, 0xD06B, 13⟩, ⟨0xD06C, 0xD06C, 12⟩, ⟨0xD06D, 0xD087, 13⟩,
  ⟨0xD088, 0xD088, 12⟩, ⟨0xD089, 0xD0A3, 13⟩, ⟨0xD0A4, 0xD0A4, 12⟩, ⟨0xD0A5, 0xD0BF, 13⟩,
  ⟨0xD0C0, 0xD0C0, 12⟩, ⟨0xD0C1, 0xD0DB, 13⟩, ⟨0xD0DC, 0xD0DC, 12⟩, ⟨0xD0DD, 0xD0F7, 13⟩,
  ⟨0xD0F8, 0xD0F8, 12⟩, ⟨0xD0F9, 0xD113, 13⟩, ⟨0xD114, 0xD114, 12⟩, ⟨0xD115, 0xD12F, 13⟩,
  ⟨0xD130, 0xD130, 12⟩, ⟨0xD131, 0xD14B, 13⟩, ⟨0xD14C, 0xD14C, 12⟩, ⟨0xD14D, 0xD167, 13⟩,
  ⟨0xD168, 0xD168, 12⟩, ⟨0xD169, 0xD183, 13⟩, ⟨0xD184, 0xD184, 12⟩, ⟨0xD185, 0xD19F, 13⟩,
  ⟨0xD1A0, 0xD1A0, 12⟩, ⟨0xD1A1, 0xD1BB, 13⟩, ⟨0xD1BC, 0xD1BC, 12⟩, ⟨0xD1BD, 0xD1D7, 13⟩,
  ⟨0xD1D8, 0xD1D8, 12⟩, ⟨0xD1D9, 0xD1F3, 13⟩, ⟨0xD1F4, 0xD1F4, 12⟩, ⟨0xD1F5, 0xD20F, 13⟩,
  ⟨0xD210, 0xD210, 12⟩, ⟨0xD211, 0xD22B, 13⟩, ⟨0xD22C, 0xD22C, 12⟩, ⟨0xD22D, 0xD247, 13⟩,
  ⟨0xD248, 0xD248, 12⟩, ⟨0xD249, 0xD263, 13⟩, ⟨0xD264, 0xD264, 12⟩, ⟨0xD265, 0xD27F, 13⟩,
  ⟨0xD280, 0xD280, 12⟩, ⟨0xD281, 0xD29B, 13⟩, ⟨0xD29C, 0xD29C, 12⟩, ⟨0xD29D, 0xD2B7, 13⟩,
  ⟨0xD2B8, 0xD2B8, 12⟩, ⟨0xD2B9, 0xD2D3, 13⟩, ⟨0xD2D4, 0xD2D4, 12⟩, ⟨0xD2D5, 0xD2EF, 13⟩,
  ⟨0xD2F0, 0xD2F0, 12⟩, ⟨0xD2F1, 0xD30B, 13⟩, ⟨0xD30C, 0xD30C, 12⟩, ⟨0xD30D, 0xD327, 13⟩,
  ⟨0xD328, 0xD328, 12⟩, ⟨0xD329, 0xD343, 13⟩, ⟨0xD344, 0xD344, 12⟩, ⟨0xD345, 0xD35F, 13⟩,
  ⟨0xD360, 0xD360, 12⟩, ⟨0xD361, 0xD37B, 13⟩, ⟨0xD37C, 0xD37C, 12⟩, ⟨0xD37D, 0xD397, 13⟩,
  ⟨0xD398, 0xD398, 12⟩, ⟨0xD399, 0xD3B3, 13⟩, ⟨0xD3B4, 0xD3B4, 12⟩, ⟨0xD3B5, 0xD3CF, 13⟩,
  ⟨0xD3D0, 0xD3D0, 12⟩, ⟨0xD3D1, 0xD3EB, 13⟩, ⟨0xD3EC, 0xD3EC, 12⟩, ⟨0xD3ED, 0xD407, 13⟩,
  ⟨0xD408, 0xD408, 12⟩, ⟨0xD409, 0xD423, 13⟩, ⟨0xD424, 0xD424, 12⟩, ⟨0xD425, 0xD43F, 13⟩,
  ⟨0xD440, 0xD440, 12⟩, ⟨0xD441, 0xD45B, 13⟩, ⟨0xD45C, 0xD45C, 12⟩, ⟨0xD45D, 0xD477, 13⟩,
  ⟨0xD478, 0xD478, 12⟩, ⟨0xD479, 0xD493, 13⟩]

/-- Part 5 of `graphemeTable`, grapheme_cluster_break.hpp:244-871. -/
def graphemeTable5 : List Range := [
  ⟨0xD494, 0xD494, 12⟩, ⟨0xD495, 0xD4AF, 13⟩, ⟨0xD4B0, 0xD4B0, 12⟩, ⟨0xD4B1, 0xD4CB, 13⟩,
  ⟨0xD4CC, 0xD4CC, 12⟩, ⟨0xD4CD, 0xD4E7, 13⟩, ⟨0xD4E8, 0xD4E8, 12⟩, ⟨0xD4E9, 0xD503, 13⟩,
  ⟨0xD504, 0xD504, 12⟩, ⟨0xD505, 0xD51F, 13⟩, ⟨0xD520, 0xD520, 12⟩, ⟨0xD521, 0xD53B, 13⟩,
  ⟨0xD53C, 0xD53C, 12⟩, ⟨0xD53D, 0xD557, 13⟩, ⟨0xD558, 0xD558, 12⟩, ⟨0xD559, 0xD573, 13⟩,
  ⟨0xD574, 0xD574, 12⟩, ⟨0xD575, 0xD58F, 13⟩, ⟨0xD590, 0xD590, 12⟩, ⟨0xD591, 0xD5AB, 13⟩,
  ⟨0xD5AC, 0xD5AC, 12⟩, ⟨0xD5AD, 0xD5C7, 13⟩, ⟨0xD5C8, 0xD5C8, 12⟩, ⟨0xD5C9, 0xD5E3, 13⟩,
  ⟨0xD5E4, 0xD5E4, 12⟩, ⟨0xD5E5, 0xD5FF, 13⟩, ⟨0xD600, 0xD600, 12⟩, ⟨0xD601, 0xD61B, 13⟩,
  ⟨0xD61C, 0xD61C, 12⟩, ⟨0xD61D, 0xD637, 13⟩, ⟨0xD638, 0xD638, 12⟩, ⟨0xD639, 0xD653, 13⟩,
  ⟨0xD654, 0xD654, 12⟩, ⟨0xD655, 0xD66F, 13⟩, ⟨0xD670, 0xD670, 12⟩, ⟨0xD671, 0xD68B, 13⟩,
  ⟨0xD68C, 0xD68C, 12⟩, ⟨0xD68D, 0xD6A7, 13⟩, ⟨0xD6A8, 0xD6A8, 12⟩, ⟨0xD6A9, 0xD6C3, 13⟩,
  ⟨0xD6C4, 0xD6C4, 12⟩, ⟨0xD6C5, 0xD6DF, 13⟩, ⟨0xD6E0, 0xD6E0, 12⟩, ⟨0xD6E1, 0xD6FB, 13⟩,
  ⟨0xD6FC, 0xD6FC, 12⟩, ⟨0xD6FD, 0xD717, 13⟩, ⟨0xD718, 0xD718, 12⟩, ⟨0xD719, 0xD733, 13⟩,
  ⟨0xD734, 0xD734, 12⟩, ⟨0xD735, 0xD74F, 13⟩, ⟨0xD750, 0xD750, 12⟩, ⟨0xD751, 0xD76B, 13⟩,
  ⟨0xD76C, 0xD76C, 12⟩, ⟨0xD76D, 0xD787, 13⟩, ⟨0xD788, 0xD788, 12⟩, ⟨0xD789, 0xD7A3, 13⟩,
  ⟨0xD7B0, 0xD7C6, 10⟩, ⟨0xD7CB, 0xD7FB, 11⟩, ⟨0xFB1E, 0xFB1E, 4⟩, ⟨0xFE00, 0xFE0F, 4⟩,
  ⟨0xFE20, 0xFE2F, 4⟩, ⟨0xFEFF, 0xFEFF, 3⟩, ⟨0xFF9E, 0xFF9F, 4⟩, ⟨0xFFF0, 0xFFF8, 3⟩,
  ⟨0xFFF9, 0xFFFB, 3⟩, ⟨0x101FD, 0x101FD, 4⟩, ⟨0x102E0, 0x102E0, 4⟩, ⟨0x10376, 0x1037A, 4⟩,
  ⟨0x10A01, 0x10A03, 4⟩, ⟨0x10A05, 0x10A06, 4⟩, ⟨0x10A0C, 0x10A0F, 4⟩, ⟨0x10A38, 0x10A3A, 4⟩,
  ⟨0x10A3F, 0x10A3F, 4⟩, ⟨0x10AE5, 0x10AE6, 4⟩, ⟨0x10D24, 0x10D27, 4⟩, ⟨0x10EAB, 0x10EAC, 4⟩,
  ⟨0x10F46, 0x10F50, 4⟩, ⟨0x10F82, 0x10F85, 4⟩, ⟨0x11000, 0x11000, 8⟩, ⟨0x11001, 0x11001, 4⟩,
  ⟨0x11002, 0x11002, 8⟩, ⟨0x11038, 0x11046, 4⟩, ⟨0x11070, 0x11070, 4⟩, ⟨0x11073, 0x11074, 4⟩,
  ⟨0x1107F, 0x11081, 4⟩, ⟨0x11082, 0x11082, 8⟩, ⟨0x110B0, 0x110B2, 8⟩, ⟨0x110B3, 0x110B6, 4⟩,
  ⟨0x110B7, 0x110B8, 8⟩, ⟨0x110B9, 0x110BA, 4⟩, ⟨0x110BD, 0x110BD, 7⟩, ⟨0x110C2, 0x110C2, 4⟩,
  ⟨0x110CD, 0x110CD, 7⟩, ⟨0x11100, 0x11102, 4⟩, ⟨0x11127, 0x1112B, 4⟩, ⟨0x1112C, 0x1112C, 8⟩,
  ⟨0x1112D, 0x11134, 4⟩, ⟨0x11145, 0x11146, 8⟩, ⟨0x11173, 0x11173, 4⟩, ⟨0x11180, 0x11181, 4⟩,
  ⟨0x11182, 0x11182, 8⟩, ⟨0x111B3, 0x111B5, 8⟩, ⟨0x111B6, 0x111BE, 4⟩, ⟨0x111BF, 0x111C0, 8⟩,
  ⟨0x111C2, 0x111C3, 7⟩, ⟨0x111C9, 0x111CC, 4⟩, ⟨0x111CE, 0x111CE, 8⟩, ⟨0x111CF, 0x111CF, 4⟩,
  ⟨0x1122C, 0x1122E, 8⟩, ⟨0x1122F, 0x11231, 4⟩, ⟨0x11232, 0x11233, 8⟩, ⟨0x11234, 0x11234, 4⟩,
  ⟨0x11235, 0x11235, 8⟩, ⟨0x11236, 0x11237, 4⟩, ⟨0x1123E, 0x1123E, 4⟩, ⟨0x112DF, 0x112DF, 4⟩,
  ⟨0x112E0, 0x112E2, 8⟩, ⟨0x112E3, 0x112EA, 4⟩, ⟨0x11300, 0x11301, 4⟩, ⟨0x11302, 0x11303, 8⟩,
  ⟨0x1133B, 0x1133C, 4⟩, ⟨0x1133E, 0x1133E, 4⟩, ⟨0x1133F, 0x1133F, 8⟩, ⟨0x11340, 0x11340, 4⟩,
  ⟨0x11341, 0x11344, 8⟩, ⟨0x11347, 0x11348, 8⟩, ⟨0x1134B, 0x1134D, 8⟩, ⟨0x11357, 0x11357, 4⟩,
  ⟨0x11362, 0x11363, 8⟩, ⟨0x11366, 0x1136C, 4⟩, ⟨0x11370, 0x11374, 4⟩, ⟨0x11435, 0x11437, 8⟩,
  ⟨0x11438, 0x1143F, 4⟩, ⟨0x11440, 0x11441, 8⟩, ⟨0x11442, 0x11444, 4⟩, ⟨0x11445, 0x11445, 8⟩,
  ⟨0x11446, 0x11446, 4⟩, ⟨0x1145E, 0x1145E, 4⟩, ⟨0x114B0, 0x114B0, 4⟩, ⟨0x114B1, 0x114B2, 8⟩,
  ⟨0x114B3, 0x114B8, 4⟩, ⟨0x114B9, 0x114B9, 8⟩, ⟨0x114BA, 0x114BA, 4⟩, ⟨0x114BB, 0x114BC, 8⟩,
  ⟨0x114BD, 0x114BD, 4⟩, ⟨0x114BE, 0x114BE, 8⟩, ⟨0x114BF, 0x114C0, 4⟩, ⟨0x114C1, 0x114C1, 8⟩,
  ⟨0x114C2, 0x114C3, 4⟩, ⟨0x115AF, 0x115AF, 4⟩, ⟨0x115B0, 0x115B1, 8⟩, ⟨0x115B2, 0x115B5, 4⟩,
  ⟨0x115B8, 0x115BB, 8⟩, ⟨0x115BC, 0x115BD, 4⟩, ⟨0x115BE, 0x115BE, 8⟩, ⟨0x115BF, 0x115C0, 4⟩,
  ⟨0x115DC, 0x115DD, 4⟩, ⟨0x11630, 0x11632, 8⟩, ⟨0x11633, 0x1163A, 4⟩, ⟨0x1163B, 0x1163C, 8⟩,
  ⟨0x1163D, 0x1163D, 4⟩, ⟨0x1163E, 0x1163E, 8⟩, ⟨0x1163F, 0x11640, 4⟩, ⟨0x116AB, 0x116AB, 4⟩,
  ⟨0x116AC, 0x116AC, 8⟩, ⟨0x116AD, 0x116AD, 4⟩, ⟨0x116AE, 0x116AF, 8⟩, ⟨0x116B0, 0x116B5, 4⟩,
  ⟨0x116B6, 0x116B6, 8⟩, ⟨0x116B7, 0x116B7, 4⟩, ⟨0x1171D, 0x1171F, 4⟩, ⟨0x11722, 0x11725, 4⟩,
  ⟨0x11726, 0x11726, 8⟩, ⟨0x11727, 0x1172B, 4⟩, ⟨0x1182C, 0x1182E, 8⟩, ⟨0x1182F, 0x11837, 4⟩,
  ⟨0x11838, 0x11838, 8⟩, ⟨0x11839, 0x1183A, 4⟩, ⟨0x11930, 0x11930, 4⟩, ⟨0x11931, 0x11935, 8⟩,
  ⟨0x11937, 0x11938, 8⟩, ⟨0x1193B, 0x1193C, 4⟩, ⟨0x1193D, 0x1193D, 8⟩, ⟨0x1193E, 0x1193E, 4⟩,
  ⟨0x1193F, 0x1193F, 7⟩, ⟨0x11940, 0x11940, 8⟩, ⟨0x11941, 0x11941, 7⟩, ⟨0x11942, 0x11942, 8⟩,
  ⟨0x11943, 0x11943, 4⟩, ⟨0x119D1, 0x119D3, 8⟩, ⟨0x119D4, 0x119D7, 4⟩, ⟨0x119DA, 0x119DB, 4⟩,
  ⟨0x119DC, 0x119DF, 8⟩, ⟨0x119E0, 0x119E0, 4⟩, ⟨0x119E4, 0x119E4, 8⟩, ⟨0x11A01, 0x11A0A, 4⟩,
  ⟨0x11A33, 0x11A38, 4⟩, ⟨0x11A39, 0x11A39, 8⟩, ⟨0x11A3A, 0x11A3A, 7⟩, ⟨0x11A3B, 0x11A3E, 4⟩,
  ⟨0x11A47, 0x11A47, 4⟩, ⟨0x11A51, 0x11A56, 4⟩, ⟨0x11A57, 0x11A58, 8⟩, ⟨0x11A59, 0x11A5B, 4⟩,
  ⟨0x11A84, 0x11A89, 7⟩, ⟨0x11A8A, 0x11A96, 4⟩, ⟨0x11A97, 0x11A97, 8⟩, ⟨0x11A98, 0x11A99, 4⟩,
  ⟨0x11C2F, 0x11C2F, 8⟩, ⟨0x11C30, 0x11C36, 4⟩, ⟨0x11C38, 0x11C3D, 4⟩, ⟨0x11C3E, 0x11C3E, 8⟩,
  ⟨0x11C3F, 0x11C3F, 4⟩, ⟨0x11C92, 0x11CA7, 4⟩, ⟨0x11CA9, 0x11CA9, 8⟩, ⟨0x11CAA, 0x11CB0, 4⟩,
  ⟨0x11CB1, 0x11CB1, 8⟩, ⟨0x11CB2, 0x11CB3, 4⟩, ⟨0x11CB4, 0x11CB4, 8⟩, ⟨0x11CB5, 0x11CB6, 4⟩,
  ⟨0x11D31, 0x11D36, 4⟩, ⟨0x11D3A, 0x11D3A, 4⟩, ⟨0x11D3C, 0x11D3D, 4⟩, ⟨0x11D3F, 0x11D45, 4⟩,
  ⟨0x11D46, 0x11D46, 7⟩, ⟨0x11D47, 0x11D47, 4⟩, ⟨0x11D8A, 0x11D8E, 8⟩, ⟨0x11D90, 0x11D91, 4⟩,
  ⟨0x11D93, 0x11D94, 8⟩, ⟨0x11D95, 0x11D95, 4⟩, ⟨0x11D96, 0x11D96, 8⟩, ⟨0x11D97, 0x11D97, 4⟩,
  ⟨0x11EF3, 0x11EF4, 4⟩, ⟨0x11EF5, 0x11EF6, 8⟩, ⟨0x13430, 0x13438, 3⟩, ⟨0x16AF0, 0x16AF4, 4⟩,
  ⟨0x16B30, 0x16B36, 4⟩, ⟨0x16F4F, 0x16F4F, 4⟩, ⟨0x16F51, 0x16F87, 8⟩, ⟨0x16F8F, 0x16F92, 4⟩,
  ⟨0x16FE4, 0x16FE4, 4⟩, ⟨0x16FF0, 0x16FF1, 8⟩, ⟨0x1BC9D, 0x1BC9E, 4⟩, ⟨0x1BCA0, 0x1BCA3, 3⟩,
  ⟨0x1CF00, 0x1CF2D, 4⟩, ⟨0x1CF30, 0x1CF46, 4⟩, ⟨0x1D165, 0x1D165, 4⟩, ⟨0x1D166, 0x1D166, 8⟩,
  ⟨0x1D167, 0x1D169, 4⟩, ⟨0x1D16D, 0x1D16D, 8⟩]

/-- Part 6 of `graphemeTable`, grapheme_cluster_break.hpp:244-871. -/
def graphemeTable6 : List Range := [
  ⟨0x1D16E, 0x1D172, 4⟩, ⟨0x1D173, 0x1D17A, 3⟩, ⟨0x1D17B, 0x1D182, 4⟩, ⟨0x1D185, 0x1D18B, 4⟩,
  ⟨0x1D1AA, 0x1D1AD, 4⟩, ⟨0x1D242, 0x1D244, 4⟩, ⟨0x1DA00, 0x1DA36, 4⟩, ⟨0x1DA3B, 0x1DA6C, 4⟩,
  ⟨0x1DA75, 0x1DA75, 4⟩, ⟨0x1DA84, 0x1DA84, 4⟩, ⟨0x1DA9B, 0x1DA9F, 4⟩, ⟨0x1DAA1, 0x1DAAF, 4⟩,
  ⟨0x1E000, 0x1E006, 4⟩, ⟨0x1E008, 0x1E018, 4⟩, ⟨0x1E01B, 0x1E021, 4⟩, ⟨0x1E023, 0x1E024, 4⟩,
  ⟨0x1E026, 0x1E02A, 4⟩, ⟨0x1E130, 0x1E136, 4⟩, ⟨0x1E2AE, 0x1E2AE, 4⟩, ⟨0x1E2EC, 0x1E2EF, 4⟩,
  ⟨0x1E8D0, 0x1E8D6, 4⟩, ⟨0x1E944, 0x1E94A, 4⟩, ⟨0x1F000, 0x1F003, 14⟩, ⟨0x1F004, 0x1F004, 14⟩,
  ⟨0x1F005, 0x1F0CE, 14⟩, ⟨0x1F0CF, 0x1F0CF, 14⟩, ⟨0x1F0D0, 0x1F0FF, 14⟩, ⟨0x1F10D, 0x1F10F, 14⟩,
  ⟨0x1F12F, 0x1F12F, 14⟩, ⟨0x1F16C, 0x1F16F, 14⟩, ⟨0x1F170, 0x1F171, 14⟩, ⟨0x1F17E, 0x1F17F, 14⟩,
  ⟨0x1F18E, 0x1F18E, 14⟩, ⟨0x1F191, 0x1F19A, 14⟩, ⟨0x1F1AD, 0x1F1E5, 14⟩, ⟨0x1F1E6, 0x1F1FF, 6⟩,
  ⟨0x1F201, 0x1F202, 14⟩, ⟨0x1F203, 0x1F20F, 14⟩, ⟨0x1F21A, 0x1F21A, 14⟩, ⟨0x1F22F, 0x1F22F, 14⟩,
  ⟨0x1F232, 0x1F23A, 14⟩, ⟨0x1F23C, 0x1F23F, 14⟩, ⟨0x1F249, 0x1F24F, 14⟩, ⟨0x1F250, 0x1F251, 14⟩,
  ⟨0x1F252, 0x1F2FF, 14⟩, ⟨0x1F300, 0x1F30C, 14⟩, ⟨0x1F30D, 0x1F30E, 14⟩, ⟨0x1F30F, 0x1F30F, 14⟩,
  ⟨0x1F310, 0x1F310, 14⟩, ⟨0x1F311, 0x1F311, 14⟩, ⟨0x1F312, 0x1F312, 14⟩, ⟨0x1F313, 0x1F315, 14⟩,
  ⟨0x1F316, 0x1F318, 14⟩, ⟨0x1F319, 0x1F319, 14⟩, ⟨0x1F31A, 0x1F31A, 14⟩, ⟨0x1F31B, 0x1F31B, 14⟩,
  ⟨0x1F31C, 0x1F31C, 14⟩, ⟨0x1F31D, 0x1F31E, 14⟩, ⟨0x1F31F, 0x1F320, 14⟩, ⟨0x1F321, 0x1F321, 14⟩,
  ⟨0x1F322, 0x1F323, 14⟩, ⟨0x1F324, 0x1F32C, 14⟩, ⟨0x1F32D, 0x1F32F, 14⟩, ⟨0x1F330, 0x1F331, 14⟩,
  ⟨0x1F332, 0x1F333, 14⟩, ⟨0x1F334, 0x1F335, 14⟩, ⟨0x1F336, 0x1F336, 14⟩, ⟨0x1F337, 0x1F34A, 14⟩,
  ⟨0x1F34B, 0x1F34B, 14⟩, ⟨0x1F34C, 0x1F34F, 14⟩, ⟨0x1F350, 0x1F350, 14⟩, ⟨0x1F351, 0x1F37B, 14⟩,
  ⟨0x1F37C, 0x1F37C, 14⟩, ⟨0x1F37D, 0x1F37D, 14⟩, ⟨0x1F37E, 0x1F37F, 14⟩, ⟨0x1F380, 0x1F393, 14⟩,
  ⟨0x1F394, 0x1F395, 14⟩, ⟨0x1F396, 0x1F397, 14⟩, ⟨0x1F398, 0x1F398, 14⟩, ⟨0x1F399, 0x1F39B, 14⟩,
  ⟨0x1F39C, 0x1F39D, 14⟩, ⟨0x1F39E, 0x1F39F, 14⟩, ⟨0x1F3A0, 0x1F3C4, 14⟩, ⟨0x1F3C5, 0x1F3C5, 14⟩,
  ⟨0x1F3C6, 0x1F3C6, 14⟩, ⟨0x1F3C7, 0x1F3C7, 14⟩, ⟨0x1F3C8, 0x1F3C8, 14⟩, ⟨0x1F3C9, 0x1F3C9, 14⟩,
  ⟨0x1F3CA, 0x1F3CA, 14⟩, ⟨0x1F3CB, 0x1F3CE, 14⟩, ⟨0x1F3CF, 0x1F3D3, 14⟩, ⟨0x1F3D4, 0x1F3DF, 14⟩,
  ⟨0x1F3E0, 0x1F3E3, 14⟩, ⟨0x1F3E4, 0x1F3E4, 14⟩, ⟨0x1F3E5, 0x1F3F0, 14⟩, ⟨0x1F3F1, 0x1F3F2, 14⟩,
  ⟨0x1F3F3, 0x1F3F3, 14⟩, ⟨0x1F3F4, 0x1F3F4, 14⟩, ⟨0x1F3F5, 0x1F3F5, 14⟩, ⟨0x1F3F6, 0x1F3F6, 14⟩,
  ⟨0x1F3F7, 0x1F3F7, 14⟩, ⟨0x1F3F8, 0x1F3FA, 14⟩, ⟨0x1F3FB, 0x1F3FF, 4⟩, ⟨0x1F400, 0x1F407, 14⟩,
  ⟨0x1F408, 0x1F408, 14⟩, ⟨0x1F409, 0x1F40B, 14⟩, ⟨0x1F40C, 0x1F40E, 14⟩, ⟨0x1F40F, 0x1F410, 14⟩,
  ⟨0x1F411, 0x1F412, 14⟩, ⟨0x1F413, 0x1F413, 14⟩, ⟨0x1F414, 0x1F414, 14⟩, ⟨0x1F415, 0x1F415, 14⟩,
  ⟨0x1F416, 0x1F416, 14⟩, ⟨0x1F417, 0x1F429, 14⟩, ⟨0x1F42A, 0x1F42A, 14⟩, ⟨0x1F42B, 0x1F43E, 14⟩,
  ⟨0x1F43F, 0x1F43F, 14⟩, ⟨0x1F440, 0x1F440, 14⟩, ⟨0x1F441, 0x1F441, 14⟩, ⟨0x1F442, 0x1F464, 14⟩,
  ⟨0x1F465, 0x1F465, 14⟩, ⟨0x1F466, 0x1F46B, 14⟩, ⟨0x1F46C, 0x1F46D, 14⟩, ⟨0x1F46E, 0x1F4AC, 14⟩,
  ⟨0x1F4AD, 0x1F4AD, 14⟩, ⟨0x1F4AE, 0x1F4B5, 14⟩, ⟨0x1F4B6, 0x1F4B7, 14⟩, ⟨0x1F4B8, 0x1F4EB, 14⟩,
  ⟨0x1F4EC, 0x1F4ED, 14⟩, ⟨0x1F4EE, 0x1F4EE, 14⟩, ⟨0x1F4EF, 0x1F4EF, 14⟩, ⟨0x1F4F0, 0x1F4F4, 14⟩,
  ⟨0x1F4F5, 0x1F4F5, 14⟩, ⟨0x1F4F6, 0x1F4F7, 14⟩, ⟨0x1F4F8, 0x1F4F8, 14⟩, ⟨0x1F4F9, 0x1F4FC, 14⟩,
  ⟨0x1F4FD, 0x1F4FD, 14⟩, ⟨0x1F4FE, 0x1F4FE, 14⟩, ⟨0x1F4FF, 0x1F502, 14⟩, ⟨0x1F503, 0x1F503, 14⟩,
  ⟨0x1F504, 0x1F507, 14⟩, ⟨0x1F508, 0x1F508, 14⟩, ⟨0x1F509, 0x1F509, 14⟩, ⟨0x1F50A, 0x1F514, 14⟩,
  ⟨0x1F515, 0x1F515, 14⟩, ⟨0x1F516, 0x1F52B, 14⟩, ⟨0x1F52C, 0x1F52D, 14⟩, ⟨0x1F52E, 0x1F53D, 14⟩,
  ⟨0x1F546, 0x1F548, 14⟩, ⟨0x1F549, 0x1F54A, 14⟩, ⟨0x1F54B, 0x1F54E, 14⟩, ⟨0x1F54F, 0x1F54F, 14⟩,
  ⟨0x1F550, 0x1F55B, 14⟩, ⟨0x1F55C, 0x1F567, 14⟩, ⟨0x1F568, 0x1F56E, 14⟩, ⟨0x1F56F, 0x1F570, 14⟩,
  ⟨0x1F571, 0x1F572, 14⟩, ⟨0x1F573, 0x1F579, 14⟩, ⟨0x1F57A, 0x1F57A, 14⟩, ⟨0x1F57B, 0x1F586, 14⟩,
  ⟨0x1F587, 0x1F587, 14⟩, ⟨0x1F588, 0x1F589, 14⟩, ⟨0x1F58A, 0x1F58D, 14⟩, ⟨0x1F58E, 0x1F58F, 14⟩,
  ⟨0x1F590, 0x1F590, 14⟩, ⟨0x1F591, 0x1F594, 14⟩, ⟨0x1F595, 0x1F596, 14⟩, ⟨0x1F597, 0x1F5A3, 14⟩,
  ⟨0x1F5A4, 0x1F5A4, 14⟩, ⟨0x1F5A5, 0x1F5A5, 14⟩, ⟨0x1F5A6, 0x1F5A7, 14⟩, ⟨0x1F5A8, 0x1F5A8, 14⟩,
  ⟨0x1F5A9, 0x1F5B0, 14⟩, ⟨0x1F5B1, 0x1F5B2, 14⟩, ⟨0x1F5B3, 0x1F5BB, 14⟩, ⟨0x1F5BC, 0x1F5BC, 14⟩,
  ⟨0x1F5BD, 0x1F5C1, 14⟩, ⟨0x1F5C2, 0x1F5C4, 14⟩, ⟨0x1F5C5, 0x1F5D0, 14⟩, ⟨0x1F5D1, 0x1F5D3, 14⟩,
  ⟨0x1F5D4, 0x1F5DB, 14⟩, ⟨0x1F5DC, 0x1F5DE, 14⟩, ⟨0x1F5DF, 0x1F5E0, 14⟩, ⟨0x1F5E1, 0x1F5E1, 14⟩,
  ⟨0x1F5E2, 0x1F5E2, 14⟩, ⟨0x1F5E3, 0x1F5E3, 14⟩, ⟨0x1F5E4, 0x1F5E7, 14⟩, ⟨0x1F5E8, 0x1F5E8, 14⟩,
  ⟨0x1F5E9, 0x1F5EE, 14⟩, ⟨0x1F5EF, 0x1F5EF, 14⟩, ⟨0x1F5F0, 0x1F5F2, 14⟩, ⟨0x1F5F3, 0x1F5F3, 14⟩,
  ⟨0x1F5F4, 0x1F5F9, 14⟩, ⟨0x1F5FA, 0x1F5FA, 14⟩, ⟨0x1F5FB, 0x1F5FF, 14⟩, ⟨0x1F600, 0x1F600, 14⟩,
  ⟨0x1F601, 0x1F606, 14⟩, ⟨0x1F607, 0x1F608, 14⟩, ⟨0x1F609, 0x1F60D, 14⟩, ⟨0x1F60E, 0x1F60E, 14⟩,
  ⟨0x1F60F, 0x1F60F, 14⟩, ⟨0x1F610, 0x1F610, 14⟩, ⟨0x1F611, 0x1F611, 14⟩, ⟨0x1F612, 0x1F614, 14⟩,
  ⟨0x1F615, 0x1F615, 14⟩, ⟨0x1F616, 0x1F616, 14⟩, ⟨0x1F617, 0x1F617, 14⟩, ⟨0x1F618, 0x1F618, 14⟩,
  ⟨0x1F619, 0x1F619, 14⟩, ⟨0x1F61A, 0x1F61A, 14⟩, ⟨0x1F61B, 0x1F61B, 14⟩, ⟨0x1F61C, 0x1F61E, 14⟩,
  ⟨0x1F61F, 0x1F61F, 14⟩, ⟨0x1F620, 0x1F625, 14⟩, ⟨0x1F626, 0x1F627, 14⟩, ⟨0x1F628, 0x1F62B, 14⟩,
  ⟨0x1F62C, 0x1F62C, 14⟩, ⟨0x1F62D, 0x1F62D, 14⟩, ⟨0x1F62E, 0x1F62F, 14⟩, ⟨0x1F630, 0x1F633, 14⟩,
  ⟨0x1F634, 0x1F634, 14⟩, ⟨0x1F635, 0x1F635, 14⟩, ⟨0x1F636, 0x1F636, 14⟩, ⟨0x1F637, 0x1F640, 14⟩,
  ⟨0x1F641, 0x1F644, 14⟩, ⟨0x1F645, 0x1F64F, 14⟩, ⟨0x1F680, 0x1F680, 14⟩, ⟨0x1F681, 0x1F682, 14⟩,
  ⟨0x1F683, 0x1F685, 14⟩, ⟨0x1F686, 0x1F686, 14⟩, ⟨0x1F687, 0x1F687, 14⟩, ⟨0x1F688, 0x1F688, 14⟩,
  ⟨0x1F689, 0x1F689, 14⟩, ⟨0x1F68A, 0x1F68B, 14⟩, ⟨0x1F68C, 0x1F68C, 14⟩, ⟨0x1F68D, 0x1F68D, 14⟩,
  ⟨0x1F68E, 0x1F68E, 14⟩, ⟨0x1F68F, 0x1F68F, 14⟩, ⟨0x1F690, 0x1F690, 14⟩, ⟨0x1F691, 0x1F693, 14⟩,
  ⟨0x1F694, 0x1F694, 14⟩, ⟨0x1F695, 0x1F695, 14⟩, ⟨0x1F696, 0x1F696, 14⟩, ⟨0x1F697, 0x1F697, 14⟩,
  ⟨0x1F698, 0x1F698, 14⟩, ⟨0x1F699, 0x1F69A, 14⟩, ⟨0x1F69B, 0x1F6A1, 14⟩, ⟨0x1F6A2, 0x1F6A2, 14⟩,
  ⟨0x1F6A3, 0x1F6A3, 14⟩, ⟨0x1F6A4, 0x1F6A5, 14⟩]

/-- Part 7 of `graphemeTable`, grapheme_cluster_break.hpp:244-871. -/
def graphemeTable7 : List Range := [
  ⟨0x1F6A6, 0x1F6A6, 14⟩, ⟨0x1F6A7, 0x1F6AD, 14⟩, ⟨0x1F6AE, 0x1F6B1, 14⟩, ⟨0x1F6B2, 0x1F6B2, 14⟩,
  ⟨0x1F6B3, 0x1F6B5, 14⟩, ⟨0x1F6B6, 0x1F6B6, 14⟩, ⟨0x1F6B7, 0x1F6B8, 14⟩, ⟨0x1F6B9, 0x1F6BE, 14⟩,
  ⟨0x1F6BF, 0x1F6BF, 14⟩, ⟨0x1F6C0, 0x1F6C0, 14⟩, ⟨0x1F6C1, 0x1F6C5, 14⟩, ⟨0x1F6C6, 0x1F6CA, 14⟩,
  ⟨0x1F6CB, 0x1F6CB, 14⟩, ⟨0x1F6CC, 0x1F6CC, 14⟩, ⟨0x1F6CD, 0x1F6CF, 14⟩, ⟨0x1F6D0, 0x1F6D0, 14⟩,
  ⟨0x1F6D1, 0x1F6D2, 14⟩, ⟨0x1F6D3, 0x1F6D4, 14⟩, ⟨0x1F6D5, 0x1F6D5, 14⟩, ⟨0x1F6D6, 0x1F6D7, 14⟩,
  ⟨0x1F6D8, 0x1F6DC, 14⟩, ⟨0x1F6DD, 0x1F6DF, 14⟩, ⟨0x1F6E0, 0x1F6E5, 14⟩, ⟨0x1F6E6, 0x1F6E8, 14⟩,
  ⟨0x1F6E9, 0x1F6E9, 14⟩, ⟨0x1F6EA, 0x1F6EA, 14⟩, ⟨0x1F6EB, 0x1F6EC, 14⟩, ⟨0x1F6ED, 0x1F6EF, 14⟩,
  ⟨0x1F6F0, 0x1F6F0, 14⟩, ⟨0x1F6F1, 0x1F6F2, 14⟩, ⟨0x1F6F3, 0x1F6F3, 14⟩, ⟨0x1F6F4, 0x1F6F6, 14⟩,
  ⟨0x1F6F7, 0x1F6F8, 14⟩, ⟨0x1F6F9, 0x1F6F9, 14⟩, ⟨0x1F6FA, 0x1F6FA, 14⟩, ⟨0x1F6FB, 0x1F6FC, 14⟩,
  ⟨0x1F6FD, 0x1F6FF, 14⟩, ⟨0x1F774, 0x1F77F, 14⟩, ⟨0x1F7D5, 0x1F7DF, 14⟩, ⟨0x1F7E0, 0x1F7EB, 14⟩,
  ⟨0x1F7EC, 0x1F7EF, 14⟩, ⟨0x1F7F0, 0x1F7F0, 14⟩, ⟨0x1F7F1, 0x1F7FF, 14⟩, ⟨0x1F80C, 0x1F80F, 14⟩,
  ⟨0x1F848, 0x1F84F, 14⟩, ⟨0x1F85A, 0x1F85F, 14⟩, ⟨0x1F888, 0x1F88F, 14⟩, ⟨0x1F8AE, 0x1F8FF, 14⟩,
  ⟨0x1F90C, 0x1F90C, 14⟩, ⟨0x1F90D, 0x1F90F, 14⟩, ⟨0x1F910, 0x1F918, 14⟩, ⟨0x1F919, 0x1F91E, 14⟩,
  ⟨0x1F91F, 0x1F91F, 14⟩, ⟨0x1F920, 0x1F927, 14⟩, ⟨0x1F928, 0x1F92F, 14⟩, ⟨0x1F930, 0x1F930, 14⟩,
  ⟨0x1F931, 0x1F932, 14⟩, ⟨0x1F933, 0x1F93A, 14⟩, ⟨0x1F93C, 0x1F93E, 14⟩, ⟨0x1F93F, 0x1F93F, 14⟩,
  ⟨0x1F940, 0x1F945, 14⟩, ⟨0x1F947, 0x1F94B, 14⟩, ⟨0x1F94C, 0x1F94C, 14⟩, ⟨0x1F94D, 0x1F94F, 14⟩,
  ⟨0x1F950, 0x1F95E, 14⟩, ⟨0x1F95F, 0x1F96B, 14⟩, ⟨0x1F96C, 0x1F970, 14⟩, ⟨0x1F971, 0x1F971, 14⟩,
  ⟨0x1F972, 0x1F972, 14⟩, ⟨0x1F973, 0x1F976, 14⟩, ⟨0x1F977, 0x1F978, 14⟩, ⟨0x1F979, 0x1F979, 14⟩,
  ⟨0x1F97A, 0x1F97A, 14⟩, ⟨0x1F97B, 0x1F97B, 14⟩, ⟨0x1F97C, 0x1F97F, 14⟩, ⟨0x1F980, 0x1F984, 14⟩,
  ⟨0x1F985, 0x1F991, 14⟩, ⟨0x1F992, 0x1F997, 14⟩, ⟨0x1F998, 0x1F9A2, 14⟩, ⟨0x1F9A3, 0x1F9A4, 14⟩,
  ⟨0x1F9A5, 0x1F9AA, 14⟩, ⟨0x1F9AB, 0x1F9AD, 14⟩, ⟨0x1F9AE, 0x1F9AF, 14⟩, ⟨0x1F9B0, 0x1F9B9, 14⟩,
  ⟨0x1F9BA, 0x1F9BF, 14⟩, ⟨0x1F9C0, 0x1F9C0, 14⟩, ⟨0x1F9C1, 0x1F9C2, 14⟩, ⟨0x1F9C3, 0x1F9CA, 14⟩,
  ⟨0x1F9CB, 0x1F9CB, 14⟩, ⟨0x1F9CC, 0x1F9CC, 14⟩, ⟨0x1F9CD, 0x1F9CF, 14⟩, ⟨0x1F9D0, 0x1F9E6, 14⟩,
  ⟨0x1F9E7, 0x1F9FF, 14⟩, ⟨0x1FA00, 0x1FA6F, 14⟩, ⟨0x1FA70, 0x1FA73, 14⟩, ⟨0x1FA74, 0x1FA74, 14⟩,
  ⟨0x1FA75, 0x1FA77, 14⟩, ⟨0x1FA78, 0x1FA7A, 14⟩, ⟨0x1FA7B, 0x1FA7C, 14⟩, ⟨0x1FA7D, 0x1FA7F, 14⟩,
  ⟨0x1FA80, 0x1FA82, 14⟩, ⟨0x1FA83, 0x1FA86, 14⟩, ⟨0x1FA87, 0x1FA8F, 14⟩, ⟨0x1FA90, 0x1FA95, 14⟩,
  ⟨0x1FA96, 0x1FAA8, 14⟩, ⟨0x1FAA9, 0x1FAAC, 14⟩, ⟨0x1FAAD, 0x1FAAF, 14⟩, ⟨0x1FAB0, 0x1FAB6, 14⟩,
  ⟨0x1FAB7, 0x1FABA, 14⟩, ⟨0x1FABB, 0x1FABF, 14⟩, ⟨0x1FAC0, 0x1FAC2, 14⟩, ⟨0x1FAC3, 0x1FAC5, 14⟩,
  ⟨0x1FAC6, 0x1FACF, 14⟩, ⟨0x1FAD0, 0x1FAD6, 14⟩, ⟨0x1FAD7, 0x1FAD9, 14⟩, ⟨0x1FADA, 0x1FADF, 14⟩,
  ⟨0x1FAE0, 0x1FAE7, 14⟩, ⟨0x1FAE8, 0x1FAEF, 14⟩, ⟨0x1FAF0, 0x1FAF6, 14⟩, ⟨0x1FAF7, 0x1FAFF, 14⟩,
  ⟨0x1FC00, 0x1FFFD, 14⟩, ⟨0xE0000, 0xE0000, 3⟩, ⟨0xE0001, 0xE0001, 3⟩, ⟨0xE0002, 0xE001F, 3⟩,
  ⟨0xE0020, 0xE007F, 4⟩, ⟨0xE0080, 0xE00FF, 3⟩, ⟨0xE0100, 0xE01EF, 4⟩, ⟨0xE01F0, 0xE0FFF, 3⟩]

/-- The table of grapheme_cluster_break.hpp:244-871, 1878 entries. -/
def graphemeTable : List Range :=
  graphemeTable0 ++ graphemeTable1 ++ graphemeTable2 ++ graphemeTable3 ++ graphemeTable4 ++ graphemeTable5 ++ graphemeTable6 ++ graphemeTable7

end ArgRouter.Utf8

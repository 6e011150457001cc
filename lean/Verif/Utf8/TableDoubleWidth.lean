import Verif.Utf8.Range

/-! # Generated from include/arg_router/utility/utf8/double_width.hpp:18-90 (do not edit) -/

namespace ArgRouter.Utf8

/-- Part 0 of `doubleWidthTable`, double_width.hpp:18-90. -/
def doubleWidthTable0 : List Range := [
  ⟨0x1100, 0x115F, 0⟩, ⟨0x231A, 0x231B, 0⟩, ⟨0x2329, 0x2329, 0⟩, ⟨0x232A, 0x232A, 0⟩,
  ⟨0x23E9, 0x23EC, 0⟩, ⟨0x23F0, 0x23F0, 0⟩, ⟨0x23F3, 0x23F3, 0⟩, ⟨0x25FD, 0x25FE, 0⟩,
  ⟨0x2614, 0x2615, 0⟩, ⟨0x2648, 0x2653, 0⟩, ⟨0x267F, 0x267F, 0⟩, ⟨0x2693, 0x2693, 0⟩,
  ⟨0x26A1, 0x26A1, 0⟩, ⟨0x26AA, 0x26AB, 0⟩, ⟨0x26BD, 0x26BE, 0⟩, ⟨0x26C4, 0x26C5, 0⟩,
  ⟨0x26CE, 0x26CE, 0⟩, ⟨0x26D4, 0x26D4, 0⟩, ⟨0x26EA, 0x26EA, 0⟩, ⟨0x26F2, 0x26F3, 0⟩,
  ⟨0x26F5, 0x26F5, 0⟩, ⟨0x26FA, 0x26FA, 0⟩, ⟨0x26FD, 0x26FD, 0⟩, ⟨0x2705, 0x2705, 0⟩,
  ⟨0x270A, 0x270B, 0⟩, ⟨0x2728, 0x2728, 0⟩, ⟨0x274C, 0x274C, 0⟩, ⟨0x274E, 0x274E, 0⟩,
  ⟨0x2753, 0x2755, 0⟩, ⟨0x2757, 0x2757, 0⟩, ⟨0x2795, 0x2797, 0⟩, ⟨0x27B0, 0x27B0, 0⟩,
  ⟨0x27BF, 0x27BF, 0⟩, ⟨0x2B1B, 0x2B1C, 0⟩, ⟨0x2B50, 0x2B50, 0⟩, ⟨0x2B55, 0x2B55, 0⟩,
  ⟨0x2E80, 0x2E99, 0⟩, ⟨0x2E9B, 0x2EF3, 0⟩, ⟨0x2F00, 0x2FD5, 0⟩, ⟨0x2FF0, 0x2FFB, 0⟩,
  ⟨0x3000, 0x3000, 0⟩, ⟨0x3001, 0x3003, 0⟩, ⟨0x3004, 0x3004, 0⟩, ⟨0x3005, 0x3005, 0⟩,
  ⟨0x3006, 0x3006, 0⟩, ⟨0x3007, 0x3007, 0⟩, ⟨0x3008, 0x3008, 0⟩, ⟨0x3009, 0x3009, 0⟩,
  ⟨0x300A, 0x300A, 0⟩, ⟨0x300B, 0x300B, 0⟩, ⟨0x300C, 0x300C, 0⟩, ⟨0x300D, 0x300D, 0⟩,
  ⟨0x300E, 0x300E, 0⟩, ⟨0x300F, 0x300F, 0⟩, ⟨0x3010, 0x3010, 0⟩, ⟨0x3011, 0x3011, 0⟩,
  ⟨0x3012, 0x3013, 0⟩, ⟨0x3014, 0x3014, 0⟩, ⟨0x3015, 0x3015, 0⟩, ⟨0x3016, 0x3016, 0⟩,
  ⟨0x3017, 0x3017, 0⟩, ⟨0x3018, 0x3018, 0⟩, ⟨0x3019, 0x3019, 0⟩, ⟨0x301A, 0x301A, 0⟩,
  ⟨0x301B, 0x301B, 0⟩, ⟨0x301C, 0x301C, 0⟩, ⟨0x301D, 0x301D, 0⟩, ⟨0x301E, 0x301F, 0⟩,
  ⟨0x3020, 0x3020, 0⟩, ⟨0x3021, 0x3029, 0⟩, ⟨0x302A, 0x302D, 0⟩, ⟨0x302E, 0x302F, 0⟩,
  ⟨0x3030, 0x3030, 0⟩, ⟨0x3031, 0x3035, 0⟩, ⟨0x3036, 0x3037, 0⟩, ⟨0x3038, 0x303A, 0⟩,
  ⟨0x303B, 0x303B, 0⟩, ⟨0x303C, 0x303C, 0⟩, ⟨0x303D, 0x303D, 0⟩, ⟨0x303E, 0x303E, 0⟩,
  ⟨0x3041, 0x3096, 0⟩, ⟨0x3099, 0x309A, 0⟩, ⟨0x309B, 0x309C, 0⟩, ⟨0x309D, 0x309E, 0⟩,
  ⟨0x309F, 0x309F, 0⟩, ⟨0x30A0, 0x30A0, 0⟩, ⟨0x30A1, 0x30FA, 0⟩, ⟨0x30FB, 0x30FB, 0⟩,
  ⟨0x30FC, 0x30FE, 0⟩, ⟨0x30FF, 0x30FF, 0⟩, ⟨0x3105, 0x312F, 0⟩, ⟨0x3131, 0x318E, 0⟩,
  ⟨0x3190, 0x3191, 0⟩, ⟨0x3192, 0x3195, 0⟩, ⟨0x3196, 0x319F, 0⟩, ⟨0x31A0, 0x31BF, 0⟩,
  ⟨0x31C0, 0x31E3, 0⟩, ⟨0x31F0, 0x31FF, 0⟩, ⟨0x3200, 0x321E, 0⟩, ⟨0x3220, 0x3229, 0⟩,
  ⟨0x322A, 0x3247, 0⟩, ⟨0x3250, 0x3250, 0⟩, ⟨0x3251, 0x325F, 0⟩, ⟨0x3260, 0x327F, 0⟩,
  ⟨0x3280, 0x3289, 0⟩, ⟨0x328A, 0x32B0, 0⟩, ⟨0x32B1, 0x32BF, 0⟩, ⟨0x32C0, 0x32FF, 0⟩,
  ⟨0x3300, 0x33FF, 0⟩, ⟨0x3400, 0x4DBF, 0⟩, ⟨0x4E00, 0x9FFF, 0⟩, ⟨0xA000, 0xA014, 0⟩,
  ⟨0xA015, 0xA015, 0⟩, ⟨0xA016, 0xA48C, 0⟩, ⟨0xA490, 0xA4C6, 0⟩, ⟨0xA960, 0xA97C, 0⟩,
  ⟨0xAC00, 0xD7A3, 0⟩, ⟨0xF900, 0xFA6D, 0⟩, ⟨0xFA6E, 0xFA6F, 0⟩, ⟨0xFA70, 0xFAD9, 0⟩,
  ⟨0xFADA, 0xFAFF, 0⟩, ⟨0xFE10, 0xFE16, 0⟩, ⟨0xFE17, 0xFE17, 0⟩, ⟨0xFE18, 0xFE18, 0⟩,
  ⟨0xFE19, 0xFE19, 0⟩, ⟨0xFE30, 0xFE30, 0⟩, ⟨0xFE31, 0xFE32, 0⟩, ⟨0xFE33, 0xFE34, 0⟩,
  ⟨0xFE35, 0xFE35, 0⟩, ⟨0xFE36, 0xFE36, 0⟩, ⟨0xFE37, 0xFE37, 0⟩, ⟨0xFE38, 0xFE38, 0⟩,
  ⟨0xFE39, 0xFE39, 0⟩, ⟨0xFE3A, 0xFE3A, 0⟩, ⟨0xFE3B, 0xFE3B, 0⟩, ⟨0xFE3C, 0xFE3C, 0⟩,
  ⟨0xFE3D, 0xFE3D, 0⟩, ⟨0xFE3E, 0xFE3E, 0⟩, ⟨0xFE3F, 0xFE3F, 0⟩, ⟨0xFE40, 0xFE40, 0⟩,
  ⟨0xFE41, 0xFE41, 0⟩, ⟨0xFE42, 0xFE42, 0⟩, ⟨0xFE43, 0xFE43, 0⟩, ⟨0xFE44, 0xFE44, 0⟩,
  ⟨0xFE45, 0xFE46, 0⟩, ⟨0xFE47, 0xFE47, 0⟩, ⟨0xFE48, 0xFE48, 0⟩, ⟨0xFE49, 0xFE4C, 0⟩,
  ⟨0xFE4D, 0xFE4F, 0⟩, ⟨0xFE50, 0xFE52, 0⟩, ⟨0xFE54, 0xFE57, 0⟩, ⟨0xFE58, 0xFE58, 0⟩,
  ⟨0xFE59, 0xFE59, 0⟩, ⟨0xFE5A, 0xFE5A, 0⟩, ⟨0xFE5B, 0xFE5B, 0⟩, ⟨0xFE5C, 0xFE5C, 0⟩,
  ⟨0xFE5D, 0xFE5D, 0⟩, ⟨0xFE5E, 0xFE5E, 0⟩, ⟨0xFE5F, 0xFE61, 0⟩, ⟨0xFE62, 0xFE62, 0⟩,
  ⟨0xFE63, 0xFE63, 0⟩, ⟨0xFE64, 0xFE66, 0⟩, ⟨0xFE68, 0xFE68, 0⟩, ⟨0xFE69, 0xFE69, 0⟩,
  ⟨0xFE6A, 0xFE6B, 0⟩, ⟨0xFF01, 0xFF03, 0⟩, ⟨0xFF04, 0xFF04, 0⟩, ⟨0xFF05, 0xFF07, 0⟩,
  ⟨0xFF08, 0xFF08, 0⟩, ⟨0xFF09, 0xFF09, 0⟩, ⟨0xFF0A, 0xFF0A, 0⟩, ⟨0xFF0B, 0xFF0B, 0⟩,
  ⟨0xFF0C, 0xFF0C, 0⟩, ⟨0xFF0D, 0xFF0D, 0⟩, ⟨0xFF0E, 0xFF0F, 0⟩, ⟨0xFF10, 0xFF19, 0⟩,
  ⟨0xFF1A, 0xFF1B, 0⟩, ⟨0xFF1C, 0xFF1E, 0⟩, ⟨0xFF1F, 0xFF20, 0⟩, ⟨0xFF21, 0xFF3A, 0⟩,
  ⟨0xFF3B, 0xFF3B, 0⟩, ⟨0xFF3C, 0xFF3C, 0⟩, ⟨0xFF3D, 0xFF3D, 0⟩, ⟨0xFF3E, 0xFF3E, 0⟩,
  ⟨0xFF3F, 0xFF3F, 0⟩, ⟨0xFF40, 0xFF40, 0⟩, ⟨0xFF41, 0xFF5A, 0⟩, ⟨0xFF5B, 0xFF5B, 0⟩,
  ⟨0xFF5C, 0xFF5C, 0⟩, ⟨0xFF5D, 0xFF5D, 0⟩, ⟨0xFF5E, 0xFF5E, 0⟩, ⟨0xFF5F, 0xFF5F, 0⟩,
  ⟨0xFF60, 0xFF60, 0⟩, ⟨0xFFE0, 0xFFE1, 0⟩, ⟨0xFFE2, 0xFFE2, 0⟩, ⟨0xFFE3, 0xFFE3, 0⟩,
  ⟨0xFFE4, 0xFFE4, 0⟩, ⟨0xFFE5, 0xFFE6, 0⟩, ⟨0x16FE0, 0x16FE1, 0⟩, ⟨0x16FE2, 0x16FE2, 0⟩,
  ⟨0x16FE3, 0x16FE3, 0⟩, ⟨0x16FE4, 0x16FE4, 0⟩, ⟨0x16FF0, 0x16FF1, 0⟩, ⟨0x17000, 0x187F7, 0⟩,
  ⟨0x18800, 0x18AFF, 0⟩, ⟨0x18B00, 0x18CD5, 0⟩, ⟨0x18D00, 0x18D08, 0⟩, ⟨0x1AFF0, 0x1AFF3, 0⟩,
  ⟨0x1AFF5, 0x1AFFB, 0⟩, ⟨0x1AFFD, 0x1AFFE, 0⟩, ⟨0x1B000, 0x1B0FF, 0⟩, ⟨0x1B100, 0x1B122, 0⟩,
  ⟨0x1B150, 0x1B152, 0⟩, ⟨0x1B164, 0x1B167, 0⟩, ⟨0x1B170, 0x1B2FB, 0⟩, ⟨0x1F004, 0x1F004, 0⟩,
  ⟨0x1F0CF, 0x1F0CF, 0⟩, ⟨0x1F18E, 0x1F18E, 0⟩, ⟨0x1F191, 0x1F19A, 0⟩, ⟨0x1F200, 0x1F202, 0⟩,
  ⟨0x1F210, 0x1F23B, 0⟩, ⟨0x1F240, 0x1F248, 0⟩, ⟨0x1F250, 0x1F251, 0⟩, ⟨0x1F260, 0x1F265, 0⟩,
  ⟨0x1F300, 0x1F320, 0⟩, ⟨0x1F32D, 0x1F335, 0⟩, ⟨0x1F337, 0x1F37C, 0⟩, ⟨0x1F37E, 0x1F393, 0⟩,
  ⟨0x1F3A0, 0x1F3CA, 0⟩, ⟨0x1F3CF, 0x1F3D3, 0⟩, ⟨0x1F3E0, 0x1F3F0, 0⟩, ⟨0x1F3F4, 0x1F3F4, 0⟩,
  ⟨0x1F3F8, 0x1F3FA, 0⟩, ⟨0x1F3FB, 0x1F3FF, 0⟩, ⟨0x1F400, 0x1F43E, 0⟩, ⟨0x1F440, 0x1F440, 0⟩,
  ⟨0x1F442, 0x1F4FC, 0⟩, ⟨0x1F4FF, 0x1F53D, 0⟩, ⟨0x1F54B, 0x1F54E, 0⟩, ⟨0x1F550, 0x1F567, 0⟩,
  ⟨0x1F57A, 0x1F57A, 0⟩, ⟨0x1F595, 0x1F596, 0⟩, ⟨0x1F5A4, 0x1F5A4, 0⟩, ⟨0x1F5FB, 0x1F5FF, 0⟩,
  ⟨0x1F600, 0x1F64F, 0⟩, ⟨0x1F680, 0x1F6C5, 0⟩, ⟨0x1F6CC, 0x1F6CC, 0⟩, ⟨0x1F6D0, 0x1F6D2, 0⟩,
  ⟨0x1F6D5, 0x1F6D7, 0⟩, ⟨0x1F6DD, 0x1F6DF, 0⟩]

/-- Part 1 of `doubleWidthTable`, double_width.hpp:18-90. -/
def doubleWidthTable1 : List Range := [
  ⟨0x1F6EB, 0x1F6EC, 0⟩, ⟨0x1F6F4, 0x1F6FC, 0⟩, ⟨0x1F7E0, 0x1F7EB, 0⟩, ⟨0x1F7F0, 0x1F7F0, 0⟩,
  ⟨0x1F90C, 0x1F93A, 0⟩, ⟨0x1F93C, 0x1F945, 0⟩, ⟨0x1F947, 0x1F9FF, 0⟩, ⟨0x1FA70, 0x1FA74, 0⟩,
  ⟨0x1FA78, 0x1FA7C, 0⟩, ⟨0x1FA80, 0x1FA86, 0⟩, ⟨0x1FA90, 0x1FAAC, 0⟩, ⟨0x1FAB0, 0x1FABA, 0⟩,
  ⟨0x1FAC0, 0x1FAC5, 0⟩, ⟨0x1FAD0, 0x1FAD9, 0⟩, ⟨0x1FAE0, 0x1FAE7, 0⟩, ⟨0x1FAF0, 0x1FAF6, 0⟩,
  ⟨0x20000, 0x2A6DF, 0⟩, ⟨0x2A6E0, 0x2A6FF, 0⟩, ⟨0x2A700, 0x2B738, 0⟩, ⟨0x2B739, 0x2B73F, 0⟩,
  ⟨0x2B740, 0x2B81D, 0⟩, ⟨0x2B81E, 0x2B81F, 0⟩, ⟨0x2B820, 0x2CEA1, 0⟩, ⟨0x2CEA2, 0x2CEAF, 0⟩,
  ⟨0x2CEB0, 0x2EBE0, 0⟩, ⟨0x2EBE1, 0x2F7FF, 0⟩, ⟨0x2F800, 0x2FA1D, 0⟩, ⟨0x2FA1E, 0x2FA1F, 0⟩,
  ⟨0x2FA20, 0x2FFFD, 0⟩, ⟨0x30000, 0x3134A, 0⟩, ⟨0x3134B, 0x3FFFD, 0⟩]

/-- The table of double_width.hpp:18-90, 281 entries. -/
def doubleWidthTable : List Range :=
  doubleWidthTable0 ++ doubleWidthTable1

end ArgRouter.Utf8

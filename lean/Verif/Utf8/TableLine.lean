import Verif.Utf8.Range

/-! # Generated from include/arg_router/utility/utf8/line_break.hpp:700-1868 (do not edit) -/

namespace ArgRouter.Utf8

/-- Part 0 of `lineTable`, line_break.hpp:700-1868. -/
def lineTable0 : List Range := [
  ⟨0x0, 0x8, 8⟩, ⟨0x9, 0x9, 2⟩, ⟨0xA, 0xA, 25⟩, ⟨0xB, 0xC, 5⟩,
  ⟨0xD, 0xD, 10⟩, ⟨0xE, 0x1F, 8⟩, ⟨0x20, 0x20, 34⟩, ⟨0x21, 0x21, 13⟩,
  ⟨0x22, 0x22, 32⟩, ⟨0x23, 0x23, 1⟩, ⟨0x24, 0x24, 31⟩, ⟨0x25, 0x25, 30⟩,
  ⟨0x26, 0x26, 1⟩, ⟨0x27, 0x27, 32⟩, ⟨0x28, 0x28, 29⟩, ⟨0x29, 0x29, 9⟩,
  ⟨0x2A, 0x2A, 1⟩, ⟨0x2B, 0x2B, 31⟩, ⟨0x2C, 0x2C, 21⟩, ⟨0x2D, 0x2D, 17⟩,
  ⟨0x2E, 0x2E, 21⟩, ⟨0x2F, 0x2F, 35⟩, ⟨0x30, 0x39, 28⟩, ⟨0x3A, 0x3B, 21⟩,
  ⟨0x3C, 0x3E, 1⟩, ⟨0x3F, 0x3F, 13⟩, ⟨0x40, 0x40, 1⟩, ⟨0x41, 0x5A, 1⟩,
  ⟨0x5B, 0x5B, 29⟩, ⟨0x5C, 0x5C, 31⟩, ⟨0x5D, 0x5D, 9⟩, ⟨0x5E, 0x5E, 1⟩,
  ⟨0x5F, 0x5F, 1⟩, ⟨0x60, 0x60, 1⟩, ⟨0x61, 0x7A, 1⟩, ⟨0x7B, 0x7B, 29⟩,
  ⟨0x7C, 0x7C, 2⟩, ⟨0x7D, 0x7D, 7⟩, ⟨0x7E, 0x7E, 1⟩, ⟨0x7F, 0x7F, 8⟩,
  ⟨0x80, 0x84, 8⟩, ⟨0x85, 0x85, 26⟩, ⟨0x86, 0x9F, 8⟩, ⟨0xA0, 0xA0, 14⟩,
  ⟨0xA1, 0xA1, 29⟩, ⟨0xA2, 0xA2, 30⟩, ⟨0xA3, 0xA5, 31⟩, ⟨0xA6, 0xA6, 1⟩,
  ⟨0xA7, 0xA7, 1⟩, ⟨0xA8, 0xA8, 1⟩, ⟨0xA9, 0xA9, 1⟩, ⟨0xAA, 0xAA, 1⟩,
  ⟨0xAB, 0xAB, 32⟩, ⟨0xAC, 0xAC, 1⟩, ⟨0xAD, 0xAD, 2⟩, ⟨0xAE, 0xAE, 1⟩,
  ⟨0xAF, 0xAF, 1⟩, ⟨0xB0, 0xB0, 30⟩, ⟨0xB1, 0xB1, 31⟩, ⟨0xB2, 0xB3, 1⟩,
  ⟨0xB4, 0xB4, 3⟩, ⟨0xB5, 0xB5, 1⟩, ⟨0xB6, 0xB7, 1⟩, ⟨0xB8, 0xB8, 1⟩,
  ⟨0xB9, 0xB9, 1⟩, ⟨0xBA, 0xBA, 1⟩, ⟨0xBB, 0xBB, 32⟩, ⟨0xBC, 0xBE, 1⟩,
  ⟨0xBF, 0xBF, 29⟩, ⟨0xC0, 0xD6, 1⟩, ⟨0xD7, 0xD7, 1⟩, ⟨0xD8, 0xF6, 1⟩,
  ⟨0xF7, 0xF7, 1⟩, ⟨0xF8, 0xFF, 1⟩, ⟨0x100, 0x17F, 1⟩, ⟨0x180, 0x1BA, 1⟩,
  ⟨0x1BB, 0x1BB, 1⟩, ⟨0x1BC, 0x1BF, 1⟩, ⟨0x1C0, 0x1C3, 1⟩, ⟨0x1C4, 0x24F, 1⟩,
  ⟨0x250, 0x293, 1⟩, ⟨0x294, 0x294, 1⟩, ⟨0x295, 0x2AF, 1⟩, ⟨0x2B0, 0x2C1, 1⟩,
  ⟨0x2C2, 0x2C5, 1⟩, ⟨0x2C6, 0x2C6, 1⟩, ⟨0x2C7, 0x2C7, 1⟩, ⟨0x2C8, 0x2C8, 3⟩,
  ⟨0x2C9, 0x2CB, 1⟩, ⟨0x2CC, 0x2CC, 3⟩, ⟨0x2CD, 0x2CD, 1⟩, ⟨0x2CE, 0x2CF, 1⟩,
  ⟨0x2D0, 0x2D0, 1⟩, ⟨0x2D1, 0x2D1, 1⟩, ⟨0x2D2, 0x2D7, 1⟩, ⟨0x2D8, 0x2DB, 1⟩,
  ⟨0x2DC, 0x2DC, 1⟩, ⟨0x2DD, 0x2DD, 1⟩, ⟨0x2DE, 0x2DE, 1⟩, ⟨0x2DF, 0x2DF, 3⟩,
  ⟨0x2E0, 0x2E4, 1⟩, ⟨0x2E5, 0x2EB, 1⟩, ⟨0x2EC, 0x2EC, 1⟩, ⟨0x2ED, 0x2ED, 1⟩,
  ⟨0x2EE, 0x2EE, 1⟩, ⟨0x2EF, 0x2FF, 1⟩, ⟨0x300, 0x34E, 8⟩, ⟨0x34F, 0x34F, 14⟩,
  ⟨0x350, 0x35B, 8⟩, ⟨0x35C, 0x362, 14⟩, ⟨0x363, 0x36F, 8⟩, ⟨0x370, 0x373, 1⟩,
  ⟨0x374, 0x374, 1⟩, ⟨0x375, 0x375, 1⟩, ⟨0x376, 0x377, 1⟩, ⟨0x37A, 0x37A, 1⟩,
  ⟨0x37B, 0x37D, 1⟩, ⟨0x37E, 0x37E, 21⟩, ⟨0x37F, 0x37F, 1⟩, ⟨0x384, 0x385, 1⟩,
  ⟨0x386, 0x386, 1⟩, ⟨0x387, 0x387, 1⟩, ⟨0x388, 0x38A, 1⟩, ⟨0x38C, 0x38C, 1⟩,
  ⟨0x38E, 0x3A1, 1⟩, ⟨0x3A3, 0x3F5, 1⟩, ⟨0x3F6, 0x3F6, 1⟩, ⟨0x3F7, 0x3FF, 1⟩,
  ⟨0x400, 0x481, 1⟩, ⟨0x482, 0x482, 1⟩, ⟨0x483, 0x487, 8⟩, ⟨0x488, 0x489, 8⟩,
  ⟨0x48A, 0x4FF, 1⟩, ⟨0x500, 0x52F, 1⟩, ⟨0x531, 0x556, 1⟩, ⟨0x559, 0x559, 1⟩,
  ⟨0x55A, 0x55F, 1⟩, ⟨0x560, 0x588, 1⟩, ⟨0x589, 0x589, 21⟩, ⟨0x58A, 0x58A, 2⟩,
  ⟨0x58D, 0x58E, 1⟩, ⟨0x58F, 0x58F, 31⟩, ⟨0x591, 0x5BD, 8⟩, ⟨0x5BE, 0x5BE, 2⟩,
  ⟨0x5BF, 0x5BF, 8⟩, ⟨0x5C0, 0x5C0, 1⟩, ⟨0x5C1, 0x5C2, 8⟩, ⟨0x5C3, 0x5C3, 1⟩,
  ⟨0x5C4, 0x5C5, 8⟩, ⟨0x5C6, 0x5C6, 13⟩, ⟨0x5C7, 0x5C7, 8⟩, ⟨0x5D0, 0x5EA, 19⟩,
  ⟨0x5EF, 0x5F2, 19⟩, ⟨0x5F3, 0x5F4, 1⟩, ⟨0x600, 0x605, 1⟩, ⟨0x606, 0x608, 1⟩,
  ⟨0x609, 0x60A, 30⟩, ⟨0x60B, 0x60B, 30⟩, ⟨0x60C, 0x60D, 21⟩, ⟨0x60E, 0x60F, 1⟩,
  ⟨0x610, 0x61A, 8⟩, ⟨0x61B, 0x61B, 13⟩, ⟨0x61C, 0x61C, 8⟩, ⟨0x61D, 0x61F, 13⟩,
  ⟨0x620, 0x63F, 1⟩, ⟨0x640, 0x640, 1⟩, ⟨0x641, 0x64A, 1⟩, ⟨0x64B, 0x65F, 8⟩,
  ⟨0x660, 0x669, 28⟩, ⟨0x66A, 0x66A, 30⟩, ⟨0x66B, 0x66C, 28⟩, ⟨0x66D, 0x66D, 1⟩,
  ⟨0x66E, 0x66F, 1⟩, ⟨0x670, 0x670, 8⟩, ⟨0x671, 0x6D3, 1⟩, ⟨0x6D4, 0x6D4, 13⟩,
  ⟨0x6D5, 0x6D5, 1⟩, ⟨0x6D6, 0x6DC, 8⟩, ⟨0x6DD, 0x6DD, 1⟩, ⟨0x6DE, 0x6DE, 1⟩,
  ⟨0x6DF, 0x6E4, 8⟩, ⟨0x6E5, 0x6E6, 1⟩, ⟨0x6E7, 0x6E8, 8⟩, ⟨0x6E9, 0x6E9, 1⟩,
  ⟨0x6EA, 0x6ED, 8⟩, ⟨0x6EE, 0x6EF, 1⟩, ⟨0x6F0, 0x6F9, 28⟩, ⟨0x6FA, 0x6FC, 1⟩,
  ⟨0x6FD, 0x6FE, 1⟩, ⟨0x6FF, 0x6FF, 1⟩, ⟨0x700, 0x70D, 1⟩, ⟨0x70F, 0x70F, 1⟩,
  ⟨0x710, 0x710, 1⟩, ⟨0x711, 0x711, 8⟩, ⟨0x712, 0x72F, 1⟩, ⟨0x730, 0x74A, 8⟩,
  ⟨0x74D, 0x74F, 1⟩, ⟨0x750, 0x77F, 1⟩, ⟨0x780, 0x7A5, 1⟩, ⟨0x7A6, 0x7B0, 8⟩,
  ⟨0x7B1, 0x7B1, 1⟩, ⟨0x7C0, 0x7C9, 28⟩, ⟨0x7CA, 0x7EA, 1⟩, ⟨0x7EB, 0x7F3, 8⟩,
  ⟨0x7F4, 0x7F5, 1⟩, ⟨0x7F6, 0x7F6, 1⟩, ⟨0x7F7, 0x7F7, 1⟩, ⟨0x7F8, 0x7F8, 21⟩,
  ⟨0x7F9, 0x7F9, 13⟩, ⟨0x7FA, 0x7FA, 1⟩, ⟨0x7FD, 0x7FD, 8⟩, ⟨0x7FE, 0x7FF, 31⟩,
  ⟨0x800, 0x815, 1⟩, ⟨0x816, 0x819, 8⟩, ⟨0x81A, 0x81A, 1⟩, ⟨0x81B, 0x823, 8⟩,
  ⟨0x824, 0x824, 1⟩, ⟨0x825, 0x827, 8⟩, ⟨0x828, 0x828, 1⟩, ⟨0x829, 0x82D, 8⟩,
  ⟨0x830, 0x83E, 1⟩, ⟨0x840, 0x858, 1⟩, ⟨0x859, 0x85B, 8⟩, ⟨0x85E, 0x85E, 1⟩,
  ⟨0x860, 0x86A, 1⟩, ⟨0x870, 0x887, 1⟩, ⟨0x888, 0x888, 1⟩, ⟨0x889, 0x88E, 1⟩,
  ⟨0x890, 0x891, 1⟩, ⟨0x898, 0x89F, 8⟩, ⟨0x8A0, 0x8C8, 1⟩, ⟨0x8C9, 0x8C9, 1⟩,
  ⟨0x8CA, 0x8E1, 8⟩, ⟨0x8E2, 0x8E2, 1⟩, ⟨0x8E3, 0x8FF, 8⟩, ⟨0x900, 0x902, 8⟩,
  ⟨0x903, 0x903, 8⟩, ⟨0x904, 0x939, 1⟩, ⟨0x93A, 0x93A, 8⟩, ⟨0x93B, 0x93B, 8⟩,
  ⟨0x93C, 0x93C, 8⟩, ⟨0x93D, 0x93D, 1⟩, ⟨0x93E, 0x940, 8⟩, ⟨0x941, 0x948, 8⟩,
  ⟨0x949, 0x94C, 8⟩, ⟨0x94D, 0x94D, 8⟩, ⟨0x94E, 0x94F, 8⟩, ⟨0x950, 0x950, 1⟩,
  ⟨0x951, 0x957, 8⟩, ⟨0x958, 0x961, 1⟩]

/-- Part 1 of `lineTable`, line_break.hpp:700-1868. -/
def lineTable1 : List Range := [
  ⟨0x962, 0x963, 8⟩, ⟨0x964, 0x965, 2⟩, ⟨0x966, 0x96F, 28⟩, ⟨0x970, 0x970, 1⟩,
  ⟨0x971, 0x971, 1⟩, ⟨0x972, 0x97F, 1⟩, ⟨0x980, 0x980, 1⟩, ⟨0x981, 0x981, 8⟩,
  ⟨0x982, 0x983, 8⟩, ⟨0x985, 0x98C, 1⟩, ⟨0x98F, 0x990, 1⟩, ⟨0x993, 0x9A8, 1⟩,
  ⟨0x9AA, 0x9B0, 1⟩, ⟨0x9B2, 0x9B2, 1⟩, ⟨0x9B6, 0x9B9, 1⟩, ⟨0x9BC, 0x9BC, 8⟩,
  ⟨0x9BD, 0x9BD, 1⟩, ⟨0x9BE, 0x9C0, 8⟩, ⟨0x9C1, 0x9C4, 8⟩, ⟨0x9C7, 0x9C8, 8⟩,
  ⟨0x9CB, 0x9CC, 8⟩, ⟨0x9CD, 0x9CD, 8⟩, ⟨0x9CE, 0x9CE, 1⟩, ⟨0x9D7, 0x9D7, 8⟩,
  ⟨0x9DC, 0x9DD, 1⟩, ⟨0x9DF, 0x9E1, 1⟩, ⟨0x9E2, 0x9E3, 8⟩, ⟨0x9E6, 0x9EF, 28⟩,
  ⟨0x9F0, 0x9F1, 1⟩, ⟨0x9F2, 0x9F3, 30⟩, ⟨0x9F4, 0x9F8, 1⟩, ⟨0x9F9, 0x9F9, 30⟩,
  ⟨0x9FA, 0x9FA, 1⟩, ⟨0x9FB, 0x9FB, 31⟩, ⟨0x9FC, 0x9FC, 1⟩, ⟨0x9FD, 0x9FD, 1⟩,
  ⟨0x9FE, 0x9FE, 8⟩, ⟨0xA01, 0xA02, 8⟩, ⟨0xA03, 0xA03, 8⟩, ⟨0xA05, 0xA0A, 1⟩,
  ⟨0xA0F, 0xA10, 1⟩, ⟨0xA13, 0xA28, 1⟩, ⟨0xA2A, 0xA30, 1⟩, ⟨0xA32, 0xA33, 1⟩,
  ⟨0xA35, 0xA36, 1⟩, ⟨0xA38, 0xA39, 1⟩, ⟨0xA3C, 0xA3C, 8⟩, ⟨0xA3E, 0xA40, 8⟩,
  ⟨0xA41, 0xA42, 8⟩, ⟨0xA47, 0xA48, 8⟩, ⟨0xA4B, 0xA4D, 8⟩, ⟨0xA51, 0xA51, 8⟩,
  ⟨0xA59, 0xA5C, 1⟩, ⟨0xA5E, 0xA5E, 1⟩, ⟨0xA66, 0xA6F, 28⟩, ⟨0xA70, 0xA71, 8⟩,
  ⟨0xA72, 0xA74, 1⟩, ⟨0xA75, 0xA75, 8⟩, ⟨0xA76, 0xA76, 1⟩, ⟨0xA81, 0xA82, 8⟩,
  ⟨0xA83, 0xA83, 8⟩, ⟨0xA85, 0xA8D, 1⟩, ⟨0xA8F, 0xA91, 1⟩, ⟨0xA93, 0xAA8, 1⟩,
  ⟨0xAAA, 0xAB0, 1⟩, ⟨0xAB2, 0xAB3, 1⟩, ⟨0xAB5, 0xAB9, 1⟩, ⟨0xABC, 0xABC, 8⟩,
  ⟨0xABD, 0xABD, 1⟩, ⟨0xABE, 0xAC0, 8⟩, ⟨0xAC1, 0xAC5, 8⟩, ⟨0xAC7, 0xAC8, 8⟩,
  ⟨0xAC9, 0xAC9, 8⟩, ⟨0xACB, 0xACC, 8⟩, ⟨0xACD, 0xACD, 8⟩, ⟨0xAD0, 0xAD0, 1⟩,
  ⟨0xAE0, 0xAE1, 1⟩, ⟨0xAE2, 0xAE3, 8⟩, ⟨0xAE6, 0xAEF, 28⟩, ⟨0xAF0, 0xAF0, 1⟩,
  ⟨0xAF1, 0xAF1, 31⟩, ⟨0xAF9, 0xAF9, 1⟩, ⟨0xAFA, 0xAFF, 8⟩, ⟨0xB01, 0xB01, 8⟩,
  ⟨0xB02, 0xB03, 8⟩, ⟨0xB05, 0xB0C, 1⟩, ⟨0xB0F, 0xB10, 1⟩, ⟨0xB13, 0xB28, 1⟩,
  ⟨0xB2A, 0xB30, 1⟩, ⟨0xB32, 0xB33, 1⟩, ⟨0xB35, 0xB39, 1⟩, ⟨0xB3C, 0xB3C, 8⟩,
  ⟨0xB3D, 0xB3D, 1⟩, ⟨0xB3E, 0xB3E, 8⟩, ⟨0xB3F, 0xB3F, 8⟩, ⟨0xB40, 0xB40, 8⟩,
  ⟨0xB41, 0xB44, 8⟩, ⟨0xB47, 0xB48, 8⟩, ⟨0xB4B, 0xB4C, 8⟩, ⟨0xB4D, 0xB4D, 8⟩,
  ⟨0xB55, 0xB56, 8⟩, ⟨0xB57, 0xB57, 8⟩, ⟨0xB5C, 0xB5D, 1⟩, ⟨0xB5F, 0xB61, 1⟩,
  ⟨0xB62, 0xB63, 8⟩, ⟨0xB66, 0xB6F, 28⟩, ⟨0xB70, 0xB70, 1⟩, ⟨0xB71, 0xB71, 1⟩,
  ⟨0xB72, 0xB77, 1⟩, ⟨0xB82, 0xB82, 8⟩, ⟨0xB83, 0xB83, 1⟩, ⟨0xB85, 0xB8A, 1⟩,
  ⟨0xB8E, 0xB90, 1⟩, ⟨0xB92, 0xB95, 1⟩, ⟨0xB99, 0xB9A, 1⟩, ⟨0xB9C, 0xB9C, 1⟩,
  ⟨0xB9E, 0xB9F, 1⟩, ⟨0xBA3, 0xBA4, 1⟩, ⟨0xBA8, 0xBAA, 1⟩, ⟨0xBAE, 0xBB9, 1⟩,
  ⟨0xBBE, 0xBBF, 8⟩, ⟨0xBC0, 0xBC0, 8⟩, ⟨0xBC1, 0xBC2, 8⟩, ⟨0xBC6, 0xBC8, 8⟩,
  ⟨0xBCA, 0xBCC, 8⟩, ⟨0xBCD, 0xBCD, 8⟩, ⟨0xBD0, 0xBD0, 1⟩, ⟨0xBD7, 0xBD7, 8⟩,
  ⟨0xBE6, 0xBEF, 28⟩, ⟨0xBF0, 0xBF2, 1⟩, ⟨0xBF3, 0xBF8, 1⟩, ⟨0xBF9, 0xBF9, 31⟩,
  ⟨0xBFA, 0xBFA, 1⟩, ⟨0xC00, 0xC00, 8⟩, ⟨0xC01, 0xC03, 8⟩, ⟨0xC04, 0xC04, 8⟩,
  ⟨0xC05, 0xC0C, 1⟩, ⟨0xC0E, 0xC10, 1⟩, ⟨0xC12, 0xC28, 1⟩, ⟨0xC2A, 0xC39, 1⟩,
  ⟨0xC3C, 0xC3C, 8⟩, ⟨0xC3D, 0xC3D, 1⟩, ⟨0xC3E, 0xC40, 8⟩, ⟨0xC41, 0xC44, 8⟩,
  ⟨0xC46, 0xC48, 8⟩, ⟨0xC4A, 0xC4D, 8⟩, ⟨0xC55, 0xC56, 8⟩, ⟨0xC58, 0xC5A, 1⟩,
  ⟨0xC5D, 0xC5D, 1⟩, ⟨0xC60, 0xC61, 1⟩, ⟨0xC62, 0xC63, 8⟩, ⟨0xC66, 0xC6F, 28⟩,
  ⟨0xC77, 0xC77, 3⟩, ⟨0xC78, 0xC7E, 1⟩, ⟨0xC7F, 0xC7F, 1⟩, ⟨0xC80, 0xC80, 1⟩,
  ⟨0xC81, 0xC81, 8⟩, ⟨0xC82, 0xC83, 8⟩, ⟨0xC84, 0xC84, 3⟩, ⟨0xC85, 0xC8C, 1⟩,
  ⟨0xC8E, 0xC90, 1⟩, ⟨0xC92, 0xCA8, 1⟩, ⟨0xCAA, 0xCB3, 1⟩, ⟨0xCB5, 0xCB9, 1⟩,
  ⟨0xCBC, 0xCBC, 8⟩, ⟨0xCBD, 0xCBD, 1⟩, ⟨0xCBE, 0xCBE, 8⟩, ⟨0xCBF, 0xCBF, 8⟩,
  ⟨0xCC0, 0xCC4, 8⟩, ⟨0xCC6, 0xCC6, 8⟩, ⟨0xCC7, 0xCC8, 8⟩, ⟨0xCCA, 0xCCB, 8⟩,
  ⟨0xCCC, 0xCCD, 8⟩, ⟨0xCD5, 0xCD6, 8⟩, ⟨0xCDD, 0xCDE, 1⟩, ⟨0xCE0, 0xCE1, 1⟩,
  ⟨0xCE2, 0xCE3, 8⟩, ⟨0xCE6, 0xCEF, 28⟩, ⟨0xCF1, 0xCF2, 1⟩, ⟨0xD00, 0xD01, 8⟩,
  ⟨0xD02, 0xD03, 8⟩, ⟨0xD04, 0xD0C, 1⟩, ⟨0xD0E, 0xD10, 1⟩, ⟨0xD12, 0xD3A, 1⟩,
  ⟨0xD3B, 0xD3C, 8⟩, ⟨0xD3D, 0xD3D, 1⟩, ⟨0xD3E, 0xD40, 8⟩, ⟨0xD41, 0xD44, 8⟩,
  ⟨0xD46, 0xD48, 8⟩, ⟨0xD4A, 0xD4C, 8⟩, ⟨0xD4D, 0xD4D, 8⟩, ⟨0xD4E, 0xD4E, 1⟩,
  ⟨0xD4F, 0xD4F, 1⟩, ⟨0xD54, 0xD56, 1⟩, ⟨0xD57, 0xD57, 8⟩, ⟨0xD58, 0xD5E, 1⟩,
  ⟨0xD5F, 0xD61, 1⟩, ⟨0xD62, 0xD63, 8⟩, ⟨0xD66, 0xD6F, 28⟩, ⟨0xD70, 0xD78, 1⟩,
  ⟨0xD79, 0xD79, 30⟩, ⟨0xD7A, 0xD7F, 1⟩, ⟨0xD81, 0xD81, 8⟩, ⟨0xD82, 0xD83, 8⟩,
  ⟨0xD85, 0xD96, 1⟩, ⟨0xD9A, 0xDB1, 1⟩, ⟨0xDB3, 0xDBB, 1⟩, ⟨0xDBD, 0xDBD, 1⟩,
  ⟨0xDC0, 0xDC6, 1⟩, ⟨0xDCA, 0xDCA, 8⟩, ⟨0xDCF, 0xDD1, 8⟩, ⟨0xDD2, 0xDD4, 8⟩,
  ⟨0xDD6, 0xDD6, 8⟩, ⟨0xDD8, 0xDDF, 8⟩, ⟨0xDE6, 0xDEF, 28⟩, ⟨0xDF2, 0xDF3, 8⟩,
  ⟨0xDF4, 0xDF4, 1⟩, ⟨0xE01, 0xE30, 1⟩, ⟨0xE31, 0xE31, 8⟩, ⟨0xE32, 0xE33, 1⟩,
  ⟨0xE34, 0xE3A, 8⟩, ⟨0xE3F, 0xE3F, 31⟩, ⟨0xE40, 0xE45, 1⟩, ⟨0xE46, 0xE46, 1⟩,
  ⟨0xE47, 0xE4E, 8⟩, ⟨0xE4F, 0xE4F, 1⟩, ⟨0xE50, 0xE59, 28⟩, ⟨0xE5A, 0xE5B, 2⟩,
  ⟨0xE81, 0xE82, 1⟩, ⟨0xE84, 0xE84, 1⟩, ⟨0xE86, 0xE8A, 1⟩, ⟨0xE8C, 0xEA3, 1⟩,
  ⟨0xEA5, 0xEA5, 1⟩, ⟨0xEA7, 0xEB0, 1⟩, ⟨0xEB1, 0xEB1, 8⟩, ⟨0xEB2, 0xEB3, 1⟩,
  ⟨0xEB4, 0xEBC, 8⟩, ⟨0xEBD, 0xEBD, 1⟩, ⟨0xEC0, 0xEC4, 1⟩, ⟨0xEC6, 0xEC6, 1⟩,
  ⟨0xEC8, 0xECD, 8⟩, ⟨0xED0, 0xED9, 28⟩, ⟨0xEDC, 0xEDF, 1⟩, ⟨0xF00, 0xF00, 1⟩,
  ⟨0xF01, 0xF03, 3⟩, ⟨0xF04, 0xF04, 3⟩, ⟨0xF05, 0xF05, 1⟩, ⟨0xF06, 0xF07, 3⟩,
  ⟨0xF08, 0xF08, 14⟩, ⟨0xF09, 0xF0A, 3⟩]

/-- Part 2 of `lineTable`, line_break.hpp:700-1868. -/
def lineTable2 : List Range := [
  ⟨0xF0B, 0xF0B, 2⟩, ⟨0xF0C, 0xF0C, 14⟩, ⟨0xF0D, 0xF11, 13⟩, ⟨0xF12, 0xF12, 14⟩,
  ⟨0xF13, 0xF13, 1⟩, ⟨0xF14, 0xF14, 13⟩, ⟨0xF15, 0xF17, 1⟩, ⟨0xF18, 0xF19, 8⟩,
  ⟨0xF1A, 0xF1F, 1⟩, ⟨0xF20, 0xF29, 28⟩, ⟨0xF2A, 0xF33, 1⟩, ⟨0xF34, 0xF34, 2⟩,
  ⟨0xF35, 0xF35, 8⟩, ⟨0xF36, 0xF36, 1⟩, ⟨0xF37, 0xF37, 8⟩, ⟨0xF38, 0xF38, 1⟩,
  ⟨0xF39, 0xF39, 8⟩, ⟨0xF3A, 0xF3A, 29⟩, ⟨0xF3B, 0xF3B, 7⟩, ⟨0xF3C, 0xF3C, 29⟩,
  ⟨0xF3D, 0xF3D, 7⟩, ⟨0xF3E, 0xF3F, 8⟩, ⟨0xF40, 0xF47, 1⟩, ⟨0xF49, 0xF6C, 1⟩,
  ⟨0xF71, 0xF7E, 8⟩, ⟨0xF7F, 0xF7F, 2⟩, ⟨0xF80, 0xF84, 8⟩, ⟨0xF85, 0xF85, 2⟩,
  ⟨0xF86, 0xF87, 8⟩, ⟨0xF88, 0xF8C, 1⟩, ⟨0xF8D, 0xF97, 8⟩, ⟨0xF99, 0xFBC, 8⟩,
  ⟨0xFBE, 0xFBF, 2⟩, ⟨0xFC0, 0xFC5, 1⟩, ⟨0xFC6, 0xFC6, 8⟩, ⟨0xFC7, 0xFCC, 1⟩,
  ⟨0xFCE, 0xFCF, 1⟩, ⟨0xFD0, 0xFD1, 3⟩, ⟨0xFD2, 0xFD2, 2⟩, ⟨0xFD3, 0xFD3, 3⟩,
  ⟨0xFD4, 0xFD4, 1⟩, ⟨0xFD5, 0xFD8, 1⟩, ⟨0xFD9, 0xFDA, 14⟩, ⟨0x1000, 0x102A, 1⟩,
  ⟨0x102B, 0x102C, 8⟩, ⟨0x102D, 0x1030, 8⟩, ⟨0x1031, 0x1031, 8⟩, ⟨0x1032, 0x1037, 8⟩,
  ⟨0x1038, 0x1038, 8⟩, ⟨0x1039, 0x103A, 8⟩, ⟨0x103B, 0x103C, 8⟩, ⟨0x103D, 0x103E, 8⟩,
  ⟨0x103F, 0x103F, 1⟩, ⟨0x1040, 0x1049, 28⟩, ⟨0x104A, 0x104B, 2⟩, ⟨0x104C, 0x104F, 1⟩,
  ⟨0x1050, 0x1055, 1⟩, ⟨0x1056, 0x1057, 8⟩, ⟨0x1058, 0x1059, 8⟩, ⟨0x105A, 0x105D, 1⟩,
  ⟨0x105E, 0x1060, 8⟩, ⟨0x1061, 0x1061, 1⟩, ⟨0x1062, 0x1064, 8⟩, ⟨0x1065, 0x1066, 1⟩,
  ⟨0x1067, 0x106D, 8⟩, ⟨0x106E, 0x1070, 1⟩, ⟨0x1071, 0x1074, 8⟩, ⟨0x1075, 0x1081, 1⟩,
  ⟨0x1082, 0x1082, 8⟩, ⟨0x1083, 0x1084, 8⟩, ⟨0x1085, 0x1086, 8⟩, ⟨0x1087, 0x108C, 8⟩,
  ⟨0x108D, 0x108D, 8⟩, ⟨0x108E, 0x108E, 1⟩, ⟨0x108F, 0x108F, 8⟩, ⟨0x1090, 0x1099, 28⟩,
  ⟨0x109A, 0x109C, 8⟩, ⟨0x109D, 0x109D, 8⟩, ⟨0x109E, 0x109F, 1⟩, ⟨0x10A0, 0x10C5, 1⟩,
  ⟨0x10C7, 0x10C7, 1⟩, ⟨0x10CD, 0x10CD, 1⟩, ⟨0x10D0, 0x10FA, 1⟩, ⟨0x10FB, 0x10FB, 1⟩,
  ⟨0x10FC, 0x10FC, 1⟩, ⟨0x10FD, 0x10FF, 1⟩, ⟨0x1100, 0x115F, 22⟩, ⟨0x1160, 0x11A7, 24⟩,
  ⟨0x11A8, 0x11FF, 23⟩, ⟨0x1200, 0x1248, 1⟩, ⟨0x124A, 0x124D, 1⟩, ⟨0x1250, 0x1256, 1⟩,
  ⟨0x1258, 0x1258, 1⟩, ⟨0x125A, 0x125D, 1⟩, ⟨0x1260, 0x1288, 1⟩, ⟨0x128A, 0x128D, 1⟩,
  ⟨0x1290, 0x12B0, 1⟩, ⟨0x12B2, 0x12B5, 1⟩, ⟨0x12B8, 0x12BE, 1⟩, ⟨0x12C0, 0x12C0, 1⟩,
  ⟨0x12C2, 0x12C5, 1⟩, ⟨0x12C8, 0x12D6, 1⟩, ⟨0x12D8, 0x1310, 1⟩, ⟨0x1312, 0x1315, 1⟩,
  ⟨0x1318, 0x135A, 1⟩, ⟨0x135D, 0x135F, 8⟩, ⟨0x1360, 0x1360, 1⟩, ⟨0x1361, 0x1361, 2⟩,
  ⟨0x1362, 0x1368, 1⟩, ⟨0x1369, 0x137C, 1⟩, ⟨0x1380, 0x138F, 1⟩, ⟨0x1390, 0x1399, 1⟩,
  ⟨0x13A0, 0x13F5, 1⟩, ⟨0x13F8, 0x13FD, 1⟩, ⟨0x1400, 0x1400, 2⟩, ⟨0x1401, 0x166C, 1⟩,
  ⟨0x166D, 0x166D, 1⟩, ⟨0x166E, 0x166E, 1⟩, ⟨0x166F, 0x167F, 1⟩, ⟨0x1680, 0x1680, 2⟩,
  ⟨0x1681, 0x169A, 1⟩, ⟨0x169B, 0x169B, 29⟩, ⟨0x169C, 0x169C, 7⟩, ⟨0x16A0, 0x16EA, 1⟩,
  ⟨0x16EB, 0x16ED, 2⟩, ⟨0x16EE, 0x16F0, 1⟩, ⟨0x16F1, 0x16F8, 1⟩, ⟨0x1700, 0x1711, 1⟩,
  ⟨0x1712, 0x1714, 8⟩, ⟨0x1715, 0x1715, 8⟩, ⟨0x171F, 0x171F, 1⟩, ⟨0x1720, 0x1731, 1⟩,
  ⟨0x1732, 0x1733, 8⟩, ⟨0x1734, 0x1734, 8⟩, ⟨0x1735, 0x1736, 2⟩, ⟨0x1740, 0x1751, 1⟩,
  ⟨0x1752, 0x1753, 8⟩, ⟨0x1760, 0x176C, 1⟩, ⟨0x176E, 0x1770, 1⟩, ⟨0x1772, 0x1773, 8⟩,
  ⟨0x1780, 0x17B3, 1⟩, ⟨0x17B4, 0x17B5, 8⟩, ⟨0x17B6, 0x17B6, 8⟩, ⟨0x17B7, 0x17BD, 8⟩,
  ⟨0x17BE, 0x17C5, 8⟩, ⟨0x17C6, 0x17C6, 8⟩, ⟨0x17C7, 0x17C8, 8⟩, ⟨0x17C9, 0x17D3, 8⟩,
  ⟨0x17D4, 0x17D5, 2⟩, ⟨0x17D6, 0x17D6, 27⟩, ⟨0x17D7, 0x17D7, 1⟩, ⟨0x17D8, 0x17D8, 2⟩,
  ⟨0x17D9, 0x17D9, 1⟩, ⟨0x17DA, 0x17DA, 2⟩, ⟨0x17DB, 0x17DB, 31⟩, ⟨0x17DC, 0x17DC, 1⟩,
  ⟨0x17DD, 0x17DD, 8⟩, ⟨0x17E0, 0x17E9, 28⟩, ⟨0x17F0, 0x17F9, 1⟩, ⟨0x1800, 0x1801, 1⟩,
  ⟨0x1802, 0x1803, 13⟩, ⟨0x1804, 0x1805, 2⟩, ⟨0x1806, 0x1806, 3⟩, ⟨0x1807, 0x1807, 1⟩,
  ⟨0x1808, 0x1809, 13⟩, ⟨0x180A, 0x180A, 1⟩, ⟨0x180B, 0x180D, 8⟩, ⟨0x180E, 0x180E, 14⟩,
  ⟨0x180F, 0x180F, 8⟩, ⟨0x1810, 0x1819, 28⟩, ⟨0x1820, 0x1842, 1⟩, ⟨0x1843, 0x1843, 1⟩,
  ⟨0x1844, 0x1878, 1⟩, ⟨0x1880, 0x1884, 1⟩, ⟨0x1885, 0x1886, 8⟩, ⟨0x1887, 0x18A8, 1⟩,
  ⟨0x18A9, 0x18A9, 8⟩, ⟨0x18AA, 0x18AA, 1⟩, ⟨0x18B0, 0x18F5, 1⟩, ⟨0x1900, 0x191E, 1⟩,
  ⟨0x1920, 0x1922, 8⟩, ⟨0x1923, 0x1926, 8⟩, ⟨0x1927, 0x1928, 8⟩, ⟨0x1929, 0x192B, 8⟩,
  ⟨0x1930, 0x1931, 8⟩, ⟨0x1932, 0x1932, 8⟩, ⟨0x1933, 0x1938, 8⟩, ⟨0x1939, 0x193B, 8⟩,
  ⟨0x1940, 0x1940, 1⟩, ⟨0x1944, 0x1945, 13⟩, ⟨0x1946, 0x194F, 28⟩, ⟨0x1950, 0x196D, 1⟩,
  ⟨0x1970, 0x1974, 1⟩, ⟨0x1980, 0x19AB, 1⟩, ⟨0x19B0, 0x19C9, 1⟩, ⟨0x19D0, 0x19D9, 28⟩,
  ⟨0x19DA, 0x19DA, 1⟩, ⟨0x19DE, 0x19DF, 1⟩, ⟨0x19E0, 0x19FF, 1⟩, ⟨0x1A00, 0x1A16, 1⟩,
  ⟨0x1A17, 0x1A18, 8⟩, ⟨0x1A19, 0x1A1A, 8⟩, ⟨0x1A1B, 0x1A1B, 8⟩, ⟨0x1A1E, 0x1A1F, 1⟩,
  ⟨0x1A20, 0x1A54, 1⟩, ⟨0x1A55, 0x1A55, 8⟩, ⟨0x1A56, 0x1A56, 8⟩, ⟨0x1A57, 0x1A57, 8⟩,
  ⟨0x1A58, 0x1A5E, 8⟩, ⟨0x1A60, 0x1A60, 8⟩, ⟨0x1A61, 0x1A61, 8⟩, ⟨0x1A62, 0x1A62, 8⟩,
  ⟨0x1A63, 0x1A64, 8⟩, ⟨0x1A65, 0x1A6C, 8⟩, ⟨0x1A6D, 0x1A72, 8⟩, ⟨0x1A73, 0x1A7C, 8⟩,
  ⟨0x1A7F, 0x1A7F, 8⟩, ⟨0x1A80, 0x1A89, 28⟩, ⟨0x1A90, 0x1A99, 28⟩, ⟨0x1AA0, 0x1AA6, 1⟩,
  ⟨0x1AA7, 0x1AA7, 1⟩, ⟨0x1AA8, 0x1AAD, 1⟩, ⟨0x1AB0, 0x1ABD, 8⟩, ⟨0x1ABE, 0x1ABE, 8⟩,
  ⟨0x1ABF, 0x1ACE, 8⟩, ⟨0x1B00, 0x1B03, 8⟩, ⟨0x1B04, 0x1B04, 8⟩, ⟨0x1B05, 0x1B33, 1⟩,
  ⟨0x1B34, 0x1B34, 8⟩, ⟨0x1B35, 0x1B35, 8⟩, ⟨0x1B36, 0x1B3A, 8⟩, ⟨0x1B3B, 0x1B3B, 8⟩,
  ⟨0x1B3C, 0x1B3C, 8⟩, ⟨0x1B3D, 0x1B41, 8⟩, ⟨0x1B42, 0x1B42, 8⟩, ⟨0x1B43, 0x1B44, 8⟩,
  ⟨0x1B45, 0x1B4C, 1⟩, ⟨0x1B50, 0x1B59, 28⟩, ⟨0x1B5A, 0x1B5B, 2⟩, ⟨0x1B5C, 0x1B5C, 1⟩,
  ⟨0x1B5D, 0x1B60, 2⟩, ⟨0x1B61, 0x1B6A, 1⟩, ⟨0x1B6B, 0x1B73, 8⟩, ⟨0x1B74, 0x1B7C, 1⟩,
  ⟨0x1B7D, 0x1B7E, 2⟩, ⟨0x1B80, 0x1B81, 8⟩, ⟨0x1B82, 0x1B82, 8⟩, ⟨0x1B83, 0x1BA0, 1⟩,
  ⟨0x1BA1, 0x1BA1, 8⟩, ⟨0x1BA2, 0x1BA5, 8⟩]

/-- Part 3 of `lineTable`, line_break.hpp:700-1868. -/
def lineTable3 : List Range := [
  ⟨0x1BA6, 0x1BA7, 8⟩, ⟨0x1BA8, 0x1BA9, 8⟩, ⟨0x1BAA, 0x1BAA, 8⟩, ⟨0x1BAB, 0x1BAD, 8⟩,
  ⟨0x1BAE, 0x1BAF, 1⟩, ⟨0x1BB0, 0x1BB9, 28⟩, ⟨0x1BBA, 0x1BBF, 1⟩, ⟨0x1BC0, 0x1BE5, 1⟩,
  ⟨0x1BE6, 0x1BE6, 8⟩, ⟨0x1BE7, 0x1BE7, 8⟩, ⟨0x1BE8, 0x1BE9, 8⟩, ⟨0x1BEA, 0x1BEC, 8⟩,
  ⟨0x1BED, 0x1BED, 8⟩, ⟨0x1BEE, 0x1BEE, 8⟩, ⟨0x1BEF, 0x1BF1, 8⟩, ⟨0x1BF2, 0x1BF3, 8⟩,
  ⟨0x1BFC, 0x1BFF, 1⟩, ⟨0x1C00, 0x1C23, 1⟩, ⟨0x1C24, 0x1C2B, 8⟩, ⟨0x1C2C, 0x1C33, 8⟩,
  ⟨0x1C34, 0x1C35, 8⟩, ⟨0x1C36, 0x1C37, 8⟩, ⟨0x1C3B, 0x1C3F, 2⟩, ⟨0x1C40, 0x1C49, 28⟩,
  ⟨0x1C4D, 0x1C4F, 1⟩, ⟨0x1C50, 0x1C59, 28⟩, ⟨0x1C5A, 0x1C77, 1⟩, ⟨0x1C78, 0x1C7D, 1⟩,
  ⟨0x1C7E, 0x1C7F, 2⟩, ⟨0x1C80, 0x1C88, 1⟩, ⟨0x1C90, 0x1CBA, 1⟩, ⟨0x1CBD, 0x1CBF, 1⟩,
  ⟨0x1CC0, 0x1CC7, 1⟩, ⟨0x1CD0, 0x1CD2, 8⟩, ⟨0x1CD3, 0x1CD3, 1⟩, ⟨0x1CD4, 0x1CE0, 8⟩,
  ⟨0x1CE1, 0x1CE1, 8⟩, ⟨0x1CE2, 0x1CE8, 8⟩, ⟨0x1CE9, 0x1CEC, 1⟩, ⟨0x1CED, 0x1CED, 8⟩,
  ⟨0x1CEE, 0x1CF3, 1⟩, ⟨0x1CF4, 0x1CF4, 8⟩, ⟨0x1CF5, 0x1CF6, 1⟩, ⟨0x1CF7, 0x1CF7, 8⟩,
  ⟨0x1CF8, 0x1CF9, 8⟩, ⟨0x1CFA, 0x1CFA, 1⟩, ⟨0x1D00, 0x1D2B, 1⟩, ⟨0x1D2C, 0x1D6A, 1⟩,
  ⟨0x1D6B, 0x1D77, 1⟩, ⟨0x1D78, 0x1D78, 1⟩, ⟨0x1D79, 0x1D7F, 1⟩, ⟨0x1D80, 0x1D9A, 1⟩,
  ⟨0x1D9B, 0x1DBF, 1⟩, ⟨0x1DC0, 0x1DFF, 8⟩, ⟨0x1E00, 0x1EFF, 1⟩, ⟨0x1F00, 0x1F15, 1⟩,
  ⟨0x1F18, 0x1F1D, 1⟩, ⟨0x1F20, 0x1F45, 1⟩, ⟨0x1F48, 0x1F4D, 1⟩, ⟨0x1F50, 0x1F57, 1⟩,
  ⟨0x1F59, 0x1F59, 1⟩, ⟨0x1F5B, 0x1F5B, 1⟩, ⟨0x1F5D, 0x1F5D, 1⟩, ⟨0x1F5F, 0x1F7D, 1⟩,
  ⟨0x1F80, 0x1FB4, 1⟩, ⟨0x1FB6, 0x1FBC, 1⟩, ⟨0x1FBD, 0x1FBD, 1⟩, ⟨0x1FBE, 0x1FBE, 1⟩,
  ⟨0x1FBF, 0x1FC1, 1⟩, ⟨0x1FC2, 0x1FC4, 1⟩, ⟨0x1FC6, 0x1FCC, 1⟩, ⟨0x1FCD, 0x1FCF, 1⟩,
  ⟨0x1FD0, 0x1FD3, 1⟩, ⟨0x1FD6, 0x1FDB, 1⟩, ⟨0x1FDD, 0x1FDF, 1⟩, ⟨0x1FE0, 0x1FEC, 1⟩,
  ⟨0x1FED, 0x1FEF, 1⟩, ⟨0x1FF2, 0x1FF4, 1⟩, ⟨0x1FF6, 0x1FFC, 1⟩, ⟨0x1FFD, 0x1FFD, 3⟩,
  ⟨0x1FFE, 0x1FFE, 1⟩, ⟨0x2000, 0x2006, 2⟩, ⟨0x2007, 0x2007, 14⟩, ⟨0x2008, 0x200A, 2⟩,
  ⟨0x200B, 0x200B, 37⟩, ⟨0x200C, 0x200C, 8⟩, ⟨0x200D, 0x200D, 38⟩, ⟨0x200E, 0x200F, 8⟩,
  ⟨0x2010, 0x2010, 2⟩, ⟨0x2011, 0x2011, 14⟩, ⟨0x2012, 0x2013, 2⟩, ⟨0x2014, 0x2014, 4⟩,
  ⟨0x2015, 0x2015, 1⟩, ⟨0x2016, 0x2016, 1⟩, ⟨0x2017, 0x2017, 1⟩, ⟨0x2018, 0x2018, 32⟩,
  ⟨0x2019, 0x2019, 32⟩, ⟨0x201A, 0x201A, 29⟩, ⟨0x201B, 0x201C, 32⟩, ⟨0x201D, 0x201D, 32⟩,
  ⟨0x201E, 0x201E, 29⟩, ⟨0x201F, 0x201F, 32⟩, ⟨0x2020, 0x2021, 1⟩, ⟨0x2022, 0x2023, 1⟩,
  ⟨0x2024, 0x2026, 20⟩, ⟨0x2027, 0x2027, 2⟩, ⟨0x2028, 0x2028, 5⟩, ⟨0x2029, 0x2029, 5⟩,
  ⟨0x202A, 0x202E, 8⟩, ⟨0x202F, 0x202F, 14⟩, ⟨0x2030, 0x2037, 30⟩, ⟨0x2038, 0x2038, 1⟩,
  ⟨0x2039, 0x2039, 32⟩, ⟨0x203A, 0x203A, 32⟩, ⟨0x203B, 0x203B, 1⟩, ⟨0x203C, 0x203D, 27⟩,
  ⟨0x203E, 0x203E, 1⟩, ⟨0x203F, 0x2040, 1⟩, ⟨0x2041, 0x2043, 1⟩, ⟨0x2044, 0x2044, 21⟩,
  ⟨0x2045, 0x2045, 29⟩, ⟨0x2046, 0x2046, 7⟩, ⟨0x2047, 0x2049, 27⟩, ⟨0x204A, 0x2051, 1⟩,
  ⟨0x2052, 0x2052, 1⟩, ⟨0x2053, 0x2053, 1⟩, ⟨0x2054, 0x2054, 1⟩, ⟨0x2055, 0x2055, 1⟩,
  ⟨0x2056, 0x2056, 2⟩, ⟨0x2057, 0x2057, 1⟩, ⟨0x2058, 0x205B, 2⟩, ⟨0x205C, 0x205C, 1⟩,
  ⟨0x205D, 0x205E, 2⟩, ⟨0x205F, 0x205F, 2⟩, ⟨0x2060, 0x2060, 36⟩, ⟨0x2061, 0x2064, 1⟩,
  ⟨0x2066, 0x206F, 8⟩, ⟨0x2070, 0x2070, 1⟩, ⟨0x2071, 0x2071, 1⟩, ⟨0x2074, 0x2074, 1⟩,
  ⟨0x2075, 0x2079, 1⟩, ⟨0x207A, 0x207C, 1⟩, ⟨0x207D, 0x207D, 29⟩, ⟨0x207E, 0x207E, 7⟩,
  ⟨0x207F, 0x207F, 1⟩, ⟨0x2080, 0x2080, 1⟩, ⟨0x2081, 0x2084, 1⟩, ⟨0x2085, 0x2089, 1⟩,
  ⟨0x208A, 0x208C, 1⟩, ⟨0x208D, 0x208D, 29⟩, ⟨0x208E, 0x208E, 7⟩, ⟨0x2090, 0x209C, 1⟩,
  ⟨0x20A0, 0x20A6, 31⟩, ⟨0x20A7, 0x20A7, 30⟩, ⟨0x20A8, 0x20B5, 31⟩, ⟨0x20B6, 0x20B6, 30⟩,
  ⟨0x20B7, 0x20BA, 31⟩, ⟨0x20BB, 0x20BB, 30⟩, ⟨0x20BC, 0x20BD, 31⟩, ⟨0x20BE, 0x20BE, 30⟩,
  ⟨0x20BF, 0x20BF, 31⟩, ⟨0x20C0, 0x20C0, 30⟩, ⟨0x20C1, 0x20CF, 31⟩, ⟨0x20D0, 0x20DC, 8⟩,
  ⟨0x20DD, 0x20E0, 8⟩, ⟨0x20E1, 0x20E1, 8⟩, ⟨0x20E2, 0x20E4, 8⟩, ⟨0x20E5, 0x20F0, 8⟩,
  ⟨0x2100, 0x2101, 1⟩, ⟨0x2102, 0x2102, 1⟩, ⟨0x2103, 0x2103, 30⟩, ⟨0x2104, 0x2104, 1⟩,
  ⟨0x2105, 0x2105, 1⟩, ⟨0x2106, 0x2106, 1⟩, ⟨0x2107, 0x2107, 1⟩, ⟨0x2108, 0x2108, 1⟩,
  ⟨0x2109, 0x2109, 30⟩, ⟨0x210A, 0x2112, 1⟩, ⟨0x2113, 0x2113, 1⟩, ⟨0x2114, 0x2114, 1⟩,
  ⟨0x2115, 0x2115, 1⟩, ⟨0x2116, 0x2116, 31⟩, ⟨0x2117, 0x2117, 1⟩, ⟨0x2118, 0x2118, 1⟩,
  ⟨0x2119, 0x211D, 1⟩, ⟨0x211E, 0x2120, 1⟩, ⟨0x2121, 0x2122, 1⟩, ⟨0x2123, 0x2123, 1⟩,
  ⟨0x2124, 0x2124, 1⟩, ⟨0x2125, 0x2125, 1⟩, ⟨0x2126, 0x2126, 1⟩, ⟨0x2127, 0x2127, 1⟩,
  ⟨0x2128, 0x2128, 1⟩, ⟨0x2129, 0x2129, 1⟩, ⟨0x212A, 0x212A, 1⟩, ⟨0x212B, 0x212B, 1⟩,
  ⟨0x212C, 0x212D, 1⟩, ⟨0x212E, 0x212E, 1⟩, ⟨0x212F, 0x2134, 1⟩, ⟨0x2135, 0x2138, 1⟩,
  ⟨0x2139, 0x2139, 1⟩, ⟨0x213A, 0x213B, 1⟩, ⟨0x213C, 0x213F, 1⟩, ⟨0x2140, 0x2144, 1⟩,
  ⟨0x2145, 0x2149, 1⟩, ⟨0x214A, 0x214A, 1⟩, ⟨0x214B, 0x214B, 1⟩, ⟨0x214C, 0x214D, 1⟩,
  ⟨0x214E, 0x214E, 1⟩, ⟨0x214F, 0x214F, 1⟩, ⟨0x2150, 0x2153, 1⟩, ⟨0x2154, 0x2155, 1⟩,
  ⟨0x2156, 0x215A, 1⟩, ⟨0x215B, 0x215B, 1⟩, ⟨0x215C, 0x215D, 1⟩, ⟨0x215E, 0x215E, 1⟩,
  ⟨0x215F, 0x215F, 1⟩, ⟨0x2160, 0x216B, 1⟩, ⟨0x216C, 0x216F, 1⟩, ⟨0x2170, 0x2179, 1⟩,
  ⟨0x217A, 0x2182, 1⟩, ⟨0x2183, 0x2184, 1⟩, ⟨0x2185, 0x2188, 1⟩, ⟨0x2189, 0x2189, 1⟩,
  ⟨0x218A, 0x218B, 1⟩, ⟨0x2190, 0x2194, 1⟩, ⟨0x2195, 0x2199, 1⟩, ⟨0x219A, 0x219B, 1⟩,
  ⟨0x219C, 0x219F, 1⟩, ⟨0x21A0, 0x21A0, 1⟩, ⟨0x21A1, 0x21A2, 1⟩, ⟨0x21A3, 0x21A3, 1⟩,
  ⟨0x21A4, 0x21A5, 1⟩, ⟨0x21A6, 0x21A6, 1⟩, ⟨0x21A7, 0x21AD, 1⟩, ⟨0x21AE, 0x21AE, 1⟩,
  ⟨0x21AF, 0x21CD, 1⟩, ⟨0x21CE, 0x21CF, 1⟩, ⟨0x21D0, 0x21D1, 1⟩, ⟨0x21D2, 0x21D2, 1⟩,
  ⟨0x21D3, 0x21D3, 1⟩, ⟨0x21D4, 0x21D4, 1⟩, ⟨0x21D5, 0x21F3, 1⟩, ⟨0x21F4, 0x21FF, 1⟩,
  ⟨0x2200, 0x2200, 1⟩, ⟨0x2201, 0x2201, 1⟩, ⟨0x2202, 0x2203, 1⟩, ⟨0x2204, 0x2206, 1⟩,
  ⟨0x2207, 0x2208, 1⟩, ⟨0x2209, 0x220A, 1⟩]

/-- Part 4 of `lineTable`, line_break.hpp:700-1868. -/
def lineTable4 : List Range := [
  ⟨0x220B, 0x220B, 1⟩, ⟨0x220C, 0x220E, 1⟩, ⟨0x220F, 0x220F, 1⟩, ⟨0x2210, 0x2210, 1⟩,
  ⟨0x2211, 0x2211, 1⟩, ⟨0x2212, 0x2213, 31⟩, ⟨0x2214, 0x2214, 1⟩, ⟨0x2215, 0x2215, 1⟩,
  ⟨0x2216, 0x2219, 1⟩, ⟨0x221A, 0x221A, 1⟩, ⟨0x221B, 0x221C, 1⟩, ⟨0x221D, 0x2220, 1⟩,
  ⟨0x2221, 0x2222, 1⟩, ⟨0x2223, 0x2223, 1⟩, ⟨0x2224, 0x2224, 1⟩, ⟨0x2225, 0x2225, 1⟩,
  ⟨0x2226, 0x2226, 1⟩, ⟨0x2227, 0x222C, 1⟩, ⟨0x222D, 0x222D, 1⟩, ⟨0x222E, 0x222E, 1⟩,
  ⟨0x222F, 0x2233, 1⟩, ⟨0x2234, 0x2237, 1⟩, ⟨0x2238, 0x223B, 1⟩, ⟨0x223C, 0x223D, 1⟩,
  ⟨0x223E, 0x2247, 1⟩, ⟨0x2248, 0x2248, 1⟩, ⟨0x2249, 0x224B, 1⟩, ⟨0x224C, 0x224C, 1⟩,
  ⟨0x224D, 0x2251, 1⟩, ⟨0x2252, 0x2252, 1⟩, ⟨0x2253, 0x225F, 1⟩, ⟨0x2260, 0x2261, 1⟩,
  ⟨0x2262, 0x2263, 1⟩, ⟨0x2264, 0x2267, 1⟩, ⟨0x2268, 0x2269, 1⟩, ⟨0x226A, 0x226B, 1⟩,
  ⟨0x226C, 0x226D, 1⟩, ⟨0x226E, 0x226F, 1⟩, ⟨0x2270, 0x2281, 1⟩, ⟨0x2282, 0x2283, 1⟩,
  ⟨0x2284, 0x2285, 1⟩, ⟨0x2286, 0x2287, 1⟩, ⟨0x2288, 0x2294, 1⟩, ⟨0x2295, 0x2295, 1⟩,
  ⟨0x2296, 0x2298, 1⟩, ⟨0x2299, 0x2299, 1⟩, ⟨0x229A, 0x22A4, 1⟩, ⟨0x22A5, 0x22A5, 1⟩,
  ⟨0x22A6, 0x22BE, 1⟩, ⟨0x22BF, 0x22BF, 1⟩, ⟨0x22C0, 0x22EE, 1⟩, ⟨0x22EF, 0x22EF, 20⟩,
  ⟨0x22F0, 0x22FF, 1⟩, ⟨0x2300, 0x2307, 1⟩, ⟨0x2308, 0x2308, 29⟩, ⟨0x2309, 0x2309, 7⟩,
  ⟨0x230A, 0x230A, 29⟩, ⟨0x230B, 0x230B, 7⟩, ⟨0x230C, 0x2311, 1⟩, ⟨0x2312, 0x2312, 1⟩,
  ⟨0x2313, 0x2319, 1⟩, ⟨0x231A, 0x231B, 18⟩, ⟨0x231C, 0x231F, 1⟩, ⟨0x2320, 0x2321, 1⟩,
  ⟨0x2322, 0x2328, 1⟩, ⟨0x2329, 0x2329, 29⟩, ⟨0x232A, 0x232A, 7⟩, ⟨0x232B, 0x237B, 1⟩,
  ⟨0x237C, 0x237C, 1⟩, ⟨0x237D, 0x239A, 1⟩, ⟨0x239B, 0x23B3, 1⟩, ⟨0x23B4, 0x23DB, 1⟩,
  ⟨0x23DC, 0x23E1, 1⟩, ⟨0x23E2, 0x23EF, 1⟩, ⟨0x23F0, 0x23F3, 18⟩, ⟨0x23F4, 0x23FF, 1⟩,
  ⟨0x2400, 0x2426, 1⟩, ⟨0x2440, 0x244A, 1⟩, ⟨0x2460, 0x249B, 1⟩, ⟨0x249C, 0x24E9, 1⟩,
  ⟨0x24EA, 0x24FE, 1⟩, ⟨0x24FF, 0x24FF, 1⟩, ⟨0x2500, 0x254B, 1⟩, ⟨0x254C, 0x254F, 1⟩,
  ⟨0x2550, 0x2574, 1⟩, ⟨0x2575, 0x257F, 1⟩, ⟨0x2580, 0x258F, 1⟩, ⟨0x2590, 0x2591, 1⟩,
  ⟨0x2592, 0x2595, 1⟩, ⟨0x2596, 0x259F, 1⟩, ⟨0x25A0, 0x25A1, 1⟩, ⟨0x25A2, 0x25A2, 1⟩,
  ⟨0x25A3, 0x25A9, 1⟩, ⟨0x25AA, 0x25B1, 1⟩, ⟨0x25B2, 0x25B3, 1⟩, ⟨0x25B4, 0x25B5, 1⟩,
  ⟨0x25B6, 0x25B6, 1⟩, ⟨0x25B7, 0x25B7, 1⟩, ⟨0x25B8, 0x25BB, 1⟩, ⟨0x25BC, 0x25BD, 1⟩,
  ⟨0x25BE, 0x25BF, 1⟩, ⟨0x25C0, 0x25C0, 1⟩, ⟨0x25C1, 0x25C1, 1⟩, ⟨0x25C2, 0x25C5, 1⟩,
  ⟨0x25C6, 0x25C8, 1⟩, ⟨0x25C9, 0x25CA, 1⟩, ⟨0x25CB, 0x25CB, 1⟩, ⟨0x25CC, 0x25CD, 1⟩,
  ⟨0x25CE, 0x25D1, 1⟩, ⟨0x25D2, 0x25E1, 1⟩, ⟨0x25E2, 0x25E5, 1⟩, ⟨0x25E6, 0x25EE, 1⟩,
  ⟨0x25EF, 0x25EF, 1⟩, ⟨0x25F0, 0x25F7, 1⟩, ⟨0x25F8, 0x25FF, 1⟩, ⟨0x2600, 0x2603, 18⟩,
  ⟨0x2604, 0x2604, 1⟩, ⟨0x2605, 0x2606, 1⟩, ⟨0x2607, 0x2608, 1⟩, ⟨0x2609, 0x2609, 1⟩,
  ⟨0x260A, 0x260D, 1⟩, ⟨0x260E, 0x260F, 1⟩, ⟨0x2610, 0x2613, 1⟩, ⟨0x2614, 0x2615, 18⟩,
  ⟨0x2616, 0x2617, 1⟩, ⟨0x2618, 0x2618, 18⟩, ⟨0x2619, 0x2619, 1⟩, ⟨0x261A, 0x261C, 18⟩,
  ⟨0x261D, 0x261D, 11⟩, ⟨0x261E, 0x261F, 18⟩, ⟨0x2620, 0x2638, 1⟩, ⟨0x2639, 0x263B, 18⟩,
  ⟨0x263C, 0x263F, 1⟩, ⟨0x2640, 0x2640, 1⟩, ⟨0x2641, 0x2641, 1⟩, ⟨0x2642, 0x2642, 1⟩,
  ⟨0x2643, 0x265F, 1⟩, ⟨0x2660, 0x2661, 1⟩, ⟨0x2662, 0x2662, 1⟩, ⟨0x2663, 0x2665, 1⟩,
  ⟨0x2666, 0x2666, 1⟩, ⟨0x2667, 0x2667, 1⟩, ⟨0x2668, 0x2668, 18⟩, ⟨0x2669, 0x266A, 1⟩,
  ⟨0x266B, 0x266B, 1⟩, ⟨0x266C, 0x266D, 1⟩, ⟨0x266E, 0x266E, 1⟩, ⟨0x266F, 0x266F, 1⟩,
  ⟨0x2670, 0x267E, 1⟩, ⟨0x267F, 0x267F, 18⟩, ⟨0x2680, 0x269D, 1⟩, ⟨0x269E, 0x269F, 1⟩,
  ⟨0x26A0, 0x26BC, 1⟩, ⟨0x26BD, 0x26C8, 18⟩, ⟨0x26C9, 0x26CC, 1⟩, ⟨0x26CD, 0x26CD, 18⟩,
  ⟨0x26CE, 0x26CE, 1⟩, ⟨0x26CF, 0x26D1, 18⟩, ⟨0x26D2, 0x26D2, 1⟩, ⟨0x26D3, 0x26D4, 18⟩,
  ⟨0x26D5, 0x26D7, 1⟩, ⟨0x26D8, 0x26D9, 18⟩, ⟨0x26DA, 0x26DB, 1⟩, ⟨0x26DC, 0x26DC, 18⟩,
  ⟨0x26DD, 0x26DE, 1⟩, ⟨0x26DF, 0x26E1, 18⟩, ⟨0x26E2, 0x26E2, 1⟩, ⟨0x26E3, 0x26E3, 1⟩,
  ⟨0x26E4, 0x26E7, 1⟩, ⟨0x26E8, 0x26E9, 1⟩, ⟨0x26EA, 0x26EA, 18⟩, ⟨0x26EB, 0x26F0, 1⟩,
  ⟨0x26F1, 0x26F5, 18⟩, ⟨0x26F6, 0x26F6, 1⟩, ⟨0x26F7, 0x26F8, 18⟩, ⟨0x26F9, 0x26F9, 11⟩,
  ⟨0x26FA, 0x26FA, 18⟩, ⟨0x26FB, 0x26FC, 1⟩, ⟨0x26FD, 0x26FF, 18⟩, ⟨0x2700, 0x2704, 18⟩,
  ⟨0x2705, 0x2707, 1⟩, ⟨0x2708, 0x2709, 18⟩, ⟨0x270A, 0x270D, 11⟩, ⟨0x270E, 0x2756, 1⟩,
  ⟨0x2757, 0x2757, 1⟩, ⟨0x2758, 0x275A, 1⟩, ⟨0x275B, 0x2760, 32⟩, ⟨0x2761, 0x2761, 1⟩,
  ⟨0x2762, 0x2763, 13⟩, ⟨0x2764, 0x2764, 18⟩, ⟨0x2765, 0x2767, 1⟩, ⟨0x2768, 0x2768, 29⟩,
  ⟨0x2769, 0x2769, 7⟩, ⟨0x276A, 0x276A, 29⟩, ⟨0x276B, 0x276B, 7⟩, ⟨0x276C, 0x276C, 29⟩,
  ⟨0x276D, 0x276D, 7⟩, ⟨0x276E, 0x276E, 29⟩, ⟨0x276F, 0x276F, 7⟩, ⟨0x2770, 0x2770, 29⟩,
  ⟨0x2771, 0x2771, 7⟩, ⟨0x2772, 0x2772, 29⟩, ⟨0x2773, 0x2773, 7⟩, ⟨0x2774, 0x2774, 29⟩,
  ⟨0x2775, 0x2775, 7⟩, ⟨0x2776, 0x2793, 1⟩, ⟨0x2794, 0x27BF, 1⟩, ⟨0x27C0, 0x27C4, 1⟩,
  ⟨0x27C5, 0x27C5, 29⟩, ⟨0x27C6, 0x27C6, 7⟩, ⟨0x27C7, 0x27E5, 1⟩, ⟨0x27E6, 0x27E6, 29⟩,
  ⟨0x27E7, 0x27E7, 7⟩, ⟨0x27E8, 0x27E8, 29⟩, ⟨0x27E9, 0x27E9, 7⟩, ⟨0x27EA, 0x27EA, 29⟩,
  ⟨0x27EB, 0x27EB, 7⟩, ⟨0x27EC, 0x27EC, 29⟩, ⟨0x27ED, 0x27ED, 7⟩, ⟨0x27EE, 0x27EE, 29⟩,
  ⟨0x27EF, 0x27EF, 7⟩, ⟨0x27F0, 0x27FF, 1⟩, ⟨0x2800, 0x28FF, 1⟩, ⟨0x2900, 0x297F, 1⟩,
  ⟨0x2980, 0x2982, 1⟩, ⟨0x2983, 0x2983, 29⟩, ⟨0x2984, 0x2984, 7⟩, ⟨0x2985, 0x2985, 29⟩,
  ⟨0x2986, 0x2986, 7⟩, ⟨0x2987, 0x2987, 29⟩, ⟨0x2988, 0x2988, 7⟩, ⟨0x2989, 0x2989, 29⟩,
  ⟨0x298A, 0x298A, 7⟩, ⟨0x298B, 0x298B, 29⟩, ⟨0x298C, 0x298C, 7⟩, ⟨0x298D, 0x298D, 29⟩,
  ⟨0x298E, 0x298E, 7⟩, ⟨0x298F, 0x298F, 29⟩, ⟨0x2990, 0x2990, 7⟩, ⟨0x2991, 0x2991, 29⟩,
  ⟨0x2992, 0x2992, 7⟩, ⟨0x2993, 0x2993, 29⟩, ⟨0x2994, 0x2994, 7⟩, ⟨0x2995, 0x2995, 29⟩,
  ⟨0x2996, 0x2996, 7⟩, ⟨0x2997, 0x2997, 29⟩, ⟨0x2998, 0x2998, 7⟩, ⟨0x2999, 0x29D7, 1⟩,
  ⟨0x29D8, 0x29D8, 29⟩, ⟨0x29D9, 0x29D9, 7⟩]

/-- Part 5 of `lineTable`, line_break.hpp:700-1868. -/
def lineTable5 : List Range := [
  ⟨0x29DA, 0x29DA, 29⟩, ⟨0x29DB, 0x29DB, 7⟩, ⟨0x29DC, 0x29FB, 1⟩, ⟨0x29FC, 0x29FC, 29⟩,
  ⟨0x29FD, 0x29FD, 7⟩, ⟨0x29FE, 0x29FF, 1⟩, ⟨0x2A00, 0x2AFF, 1⟩, ⟨0x2B00, 0x2B2F, 1⟩,
  ⟨0x2B30, 0x2B44, 1⟩, ⟨0x2B45, 0x2B46, 1⟩, ⟨0x2B47, 0x2B4C, 1⟩, ⟨0x2B4D, 0x2B54, 1⟩,
  ⟨0x2B55, 0x2B59, 1⟩, ⟨0x2B5A, 0x2B73, 1⟩, ⟨0x2B76, 0x2B95, 1⟩, ⟨0x2B97, 0x2BFF, 1⟩,
  ⟨0x2C00, 0x2C5F, 1⟩, ⟨0x2C60, 0x2C7B, 1⟩, ⟨0x2C7C, 0x2C7D, 1⟩, ⟨0x2C7E, 0x2C7F, 1⟩,
  ⟨0x2C80, 0x2CE4, 1⟩, ⟨0x2CE5, 0x2CEA, 1⟩, ⟨0x2CEB, 0x2CEE, 1⟩, ⟨0x2CEF, 0x2CF1, 8⟩,
  ⟨0x2CF2, 0x2CF3, 1⟩, ⟨0x2CF9, 0x2CF9, 13⟩, ⟨0x2CFA, 0x2CFC, 2⟩, ⟨0x2CFD, 0x2CFD, 1⟩,
  ⟨0x2CFE, 0x2CFE, 13⟩, ⟨0x2CFF, 0x2CFF, 2⟩, ⟨0x2D00, 0x2D25, 1⟩, ⟨0x2D27, 0x2D27, 1⟩,
  ⟨0x2D2D, 0x2D2D, 1⟩, ⟨0x2D30, 0x2D67, 1⟩, ⟨0x2D6F, 0x2D6F, 1⟩, ⟨0x2D70, 0x2D70, 2⟩,
  ⟨0x2D7F, 0x2D7F, 8⟩, ⟨0x2D80, 0x2D96, 1⟩, ⟨0x2DA0, 0x2DA6, 1⟩, ⟨0x2DA8, 0x2DAE, 1⟩,
  ⟨0x2DB0, 0x2DB6, 1⟩, ⟨0x2DB8, 0x2DBE, 1⟩, ⟨0x2DC0, 0x2DC6, 1⟩, ⟨0x2DC8, 0x2DCE, 1⟩,
  ⟨0x2DD0, 0x2DD6, 1⟩, ⟨0x2DD8, 0x2DDE, 1⟩, ⟨0x2DE0, 0x2DFF, 8⟩, ⟨0x2E00, 0x2E01, 32⟩,
  ⟨0x2E02, 0x2E02, 32⟩, ⟨0x2E03, 0x2E03, 32⟩, ⟨0x2E04, 0x2E04, 32⟩, ⟨0x2E05, 0x2E05, 32⟩,
  ⟨0x2E06, 0x2E08, 32⟩, ⟨0x2E09, 0x2E09, 32⟩, ⟨0x2E0A, 0x2E0A, 32⟩, ⟨0x2E0B, 0x2E0B, 32⟩,
  ⟨0x2E0C, 0x2E0C, 32⟩, ⟨0x2E0D, 0x2E0D, 32⟩, ⟨0x2E0E, 0x2E15, 2⟩, ⟨0x2E16, 0x2E16, 1⟩,
  ⟨0x2E17, 0x2E17, 2⟩, ⟨0x2E18, 0x2E18, 29⟩, ⟨0x2E19, 0x2E19, 2⟩, ⟨0x2E1A, 0x2E1A, 1⟩,
  ⟨0x2E1B, 0x2E1B, 1⟩, ⟨0x2E1C, 0x2E1C, 32⟩, ⟨0x2E1D, 0x2E1D, 32⟩, ⟨0x2E1E, 0x2E1F, 1⟩,
  ⟨0x2E20, 0x2E20, 32⟩, ⟨0x2E21, 0x2E21, 32⟩, ⟨0x2E22, 0x2E22, 29⟩, ⟨0x2E23, 0x2E23, 7⟩,
  ⟨0x2E24, 0x2E24, 29⟩, ⟨0x2E25, 0x2E25, 7⟩, ⟨0x2E26, 0x2E26, 29⟩, ⟨0x2E27, 0x2E27, 7⟩,
  ⟨0x2E28, 0x2E28, 29⟩, ⟨0x2E29, 0x2E29, 7⟩, ⟨0x2E2A, 0x2E2D, 2⟩, ⟨0x2E2E, 0x2E2E, 13⟩,
  ⟨0x2E2F, 0x2E2F, 1⟩, ⟨0x2E30, 0x2E31, 2⟩, ⟨0x2E32, 0x2E32, 1⟩, ⟨0x2E33, 0x2E34, 2⟩,
  ⟨0x2E35, 0x2E39, 1⟩, ⟨0x2E3A, 0x2E3B, 4⟩, ⟨0x2E3C, 0x2E3E, 2⟩, ⟨0x2E3F, 0x2E3F, 1⟩,
  ⟨0x2E40, 0x2E40, 2⟩, ⟨0x2E41, 0x2E41, 2⟩, ⟨0x2E42, 0x2E42, 29⟩, ⟨0x2E43, 0x2E4A, 2⟩,
  ⟨0x2E4B, 0x2E4B, 1⟩, ⟨0x2E4C, 0x2E4C, 2⟩, ⟨0x2E4D, 0x2E4D, 1⟩, ⟨0x2E4E, 0x2E4F, 2⟩,
  ⟨0x2E50, 0x2E51, 1⟩, ⟨0x2E52, 0x2E52, 1⟩, ⟨0x2E53, 0x2E54, 13⟩, ⟨0x2E55, 0x2E55, 29⟩,
  ⟨0x2E56, 0x2E56, 7⟩, ⟨0x2E57, 0x2E57, 29⟩, ⟨0x2E58, 0x2E58, 7⟩, ⟨0x2E59, 0x2E59, 29⟩,
  ⟨0x2E5A, 0x2E5A, 7⟩, ⟨0x2E5B, 0x2E5B, 29⟩, ⟨0x2E5C, 0x2E5C, 7⟩, ⟨0x2E5D, 0x2E5D, 2⟩,
  ⟨0x2E80, 0x2E99, 18⟩, ⟨0x2E9B, 0x2EF3, 18⟩, ⟨0x2F00, 0x2FD5, 18⟩, ⟨0x2FF0, 0x2FFB, 18⟩,
  ⟨0x3000, 0x3000, 2⟩, ⟨0x3001, 0x3002, 7⟩, ⟨0x3003, 0x3003, 18⟩, ⟨0x3004, 0x3004, 18⟩,
  ⟨0x3005, 0x3005, 27⟩, ⟨0x3006, 0x3006, 18⟩, ⟨0x3007, 0x3007, 18⟩, ⟨0x3008, 0x3008, 29⟩,
  ⟨0x3009, 0x3009, 7⟩, ⟨0x300A, 0x300A, 29⟩, ⟨0x300B, 0x300B, 7⟩, ⟨0x300C, 0x300C, 29⟩,
  ⟨0x300D, 0x300D, 7⟩, ⟨0x300E, 0x300E, 29⟩, ⟨0x300F, 0x300F, 7⟩, ⟨0x3010, 0x3010, 29⟩,
  ⟨0x3011, 0x3011, 7⟩, ⟨0x3012, 0x3013, 18⟩, ⟨0x3014, 0x3014, 29⟩, ⟨0x3015, 0x3015, 7⟩,
  ⟨0x3016, 0x3016, 29⟩, ⟨0x3017, 0x3017, 7⟩, ⟨0x3018, 0x3018, 29⟩, ⟨0x3019, 0x3019, 7⟩,
  ⟨0x301A, 0x301A, 29⟩, ⟨0x301B, 0x301B, 7⟩, ⟨0x301C, 0x301C, 27⟩, ⟨0x301D, 0x301D, 29⟩,
  ⟨0x301E, 0x301F, 7⟩, ⟨0x3020, 0x3020, 18⟩, ⟨0x3021, 0x3029, 18⟩, ⟨0x302A, 0x302D, 8⟩,
  ⟨0x302E, 0x302F, 8⟩, ⟨0x3030, 0x3030, 18⟩, ⟨0x3031, 0x3034, 18⟩, ⟨0x3035, 0x3035, 8⟩,
  ⟨0x3036, 0x3037, 18⟩, ⟨0x3038, 0x303A, 18⟩, ⟨0x303B, 0x303B, 27⟩, ⟨0x303C, 0x303C, 27⟩,
  ⟨0x303D, 0x303D, 18⟩, ⟨0x303E, 0x303F, 18⟩, ⟨0x3041, 0x3041, 27⟩, ⟨0x3042, 0x3042, 18⟩,
  ⟨0x3043, 0x3043, 27⟩, ⟨0x3044, 0x3044, 18⟩, ⟨0x3045, 0x3045, 27⟩, ⟨0x3046, 0x3046, 18⟩,
  ⟨0x3047, 0x3047, 27⟩, ⟨0x3048, 0x3048, 18⟩, ⟨0x3049, 0x3049, 27⟩, ⟨0x304A, 0x3062, 18⟩,
  ⟨0x3063, 0x3063, 27⟩, ⟨0x3064, 0x3082, 18⟩, ⟨0x3083, 0x3083, 27⟩, ⟨0x3084, 0x3084, 18⟩,
  ⟨0x3085, 0x3085, 27⟩, ⟨0x3086, 0x3086, 18⟩, ⟨0x3087, 0x3087, 27⟩, ⟨0x3088, 0x308D, 18⟩,
  ⟨0x308E, 0x308E, 27⟩, ⟨0x308F, 0x3094, 18⟩, ⟨0x3095, 0x3096, 27⟩, ⟨0x3099, 0x309A, 8⟩,
  ⟨0x309B, 0x309C, 27⟩, ⟨0x309D, 0x309E, 27⟩, ⟨0x309F, 0x309F, 18⟩, ⟨0x30A0, 0x30A0, 27⟩,
  ⟨0x30A1, 0x30A1, 27⟩, ⟨0x30A2, 0x30A2, 18⟩, ⟨0x30A3, 0x30A3, 27⟩, ⟨0x30A4, 0x30A4, 18⟩,
  ⟨0x30A5, 0x30A5, 27⟩, ⟨0x30A6, 0x30A6, 18⟩, ⟨0x30A7, 0x30A7, 27⟩, ⟨0x30A8, 0x30A8, 18⟩,
  ⟨0x30A9, 0x30A9, 27⟩, ⟨0x30AA, 0x30C2, 18⟩, ⟨0x30C3, 0x30C3, 27⟩, ⟨0x30C4, 0x30E2, 18⟩,
  ⟨0x30E3, 0x30E3, 27⟩, ⟨0x30E4, 0x30E4, 18⟩, ⟨0x30E5, 0x30E5, 27⟩, ⟨0x30E6, 0x30E6, 18⟩,
  ⟨0x30E7, 0x30E7, 27⟩, ⟨0x30E8, 0x30ED, 18⟩, ⟨0x30EE, 0x30EE, 27⟩, ⟨0x30EF, 0x30F4, 18⟩,
  ⟨0x30F5, 0x30F6, 27⟩, ⟨0x30F7, 0x30FA, 18⟩, ⟨0x30FB, 0x30FB, 27⟩, ⟨0x30FC, 0x30FC, 27⟩,
  ⟨0x30FD, 0x30FE, 27⟩, ⟨0x30FF, 0x30FF, 18⟩, ⟨0x3105, 0x312F, 18⟩, ⟨0x3131, 0x318E, 18⟩,
  ⟨0x3190, 0x3191, 18⟩, ⟨0x3192, 0x3195, 18⟩, ⟨0x3196, 0x319F, 18⟩, ⟨0x31A0, 0x31BF, 18⟩,
  ⟨0x31C0, 0x31E3, 18⟩, ⟨0x31F0, 0x31FF, 27⟩, ⟨0x3200, 0x321E, 18⟩, ⟨0x3220, 0x3229, 18⟩,
  ⟨0x322A, 0x3247, 18⟩, ⟨0x3248, 0x324F, 1⟩, ⟨0x3250, 0x3250, 18⟩, ⟨0x3251, 0x325F, 18⟩,
  ⟨0x3260, 0x327F, 18⟩, ⟨0x3280, 0x3289, 18⟩, ⟨0x328A, 0x32B0, 18⟩, ⟨0x32B1, 0x32BF, 18⟩,
  ⟨0x32C0, 0x32FF, 18⟩, ⟨0x3300, 0x33FF, 18⟩, ⟨0x3400, 0x4DBF, 18⟩, ⟨0x4DC0, 0x4DFF, 1⟩,
  ⟨0x4E00, 0x9FFF, 18⟩, ⟨0xA000, 0xA014, 18⟩, ⟨0xA015, 0xA015, 27⟩, ⟨0xA016, 0xA48C, 18⟩,
  ⟨0xA490, 0xA4C6, 18⟩, ⟨0xA4D0, 0xA4F7, 1⟩, ⟨0xA4F8, 0xA4FD, 1⟩, ⟨0xA4FE, 0xA4FF, 2⟩,
  ⟨0xA500, 0xA60B, 1⟩, ⟨0xA60C, 0xA60C, 1⟩, ⟨0xA60D, 0xA60D, 2⟩, ⟨0xA60E, 0xA60E, 13⟩,
  ⟨0xA60F, 0xA60F, 2⟩, ⟨0xA610, 0xA61F, 1⟩, ⟨0xA620, 0xA629, 28⟩, ⟨0xA62A, 0xA62B, 1⟩,
  ⟨0xA640, 0xA66D, 1⟩, ⟨0xA66E, 0xA66E, 1⟩, ⟨0xA66F, 0xA66F, 8⟩, ⟨0xA670, 0xA672, 8⟩,
  ⟨0xA673, 0xA673, 1⟩, ⟨0xA674, 0xA67D, 8⟩]

/-- Part 6 of `lineTable`, line_break.hpp:700-1868. -/
def lineTable6 : List Range := [
  ⟨0xA67E, 0xA67E, 1⟩, ⟨0xA67F, 0xA67F, 1⟩, ⟨0xA680, 0xA69B, 1⟩, ⟨0xA69C, 0xA69D, 1⟩,
  ⟨0xA69E, 0xA69F, 8⟩, ⟨0xA6A0, 0xA6E5, 1⟩, ⟨0xA6E6, 0xA6EF, 1⟩, ⟨0xA6F0, 0xA6F1, 8⟩,
  ⟨0xA6F2, 0xA6F2, 1⟩, ⟨0xA6F3, 0xA6F7, 2⟩, ⟨0xA700, 0xA716, 1⟩, ⟨0xA717, 0xA71F, 1⟩,
  ⟨0xA720, 0xA721, 1⟩, ⟨0xA722, 0xA76F, 1⟩, ⟨0xA770, 0xA770, 1⟩, ⟨0xA771, 0xA787, 1⟩,
  ⟨0xA788, 0xA788, 1⟩, ⟨0xA789, 0xA78A, 1⟩, ⟨0xA78B, 0xA78E, 1⟩, ⟨0xA78F, 0xA78F, 1⟩,
  ⟨0xA790, 0xA7CA, 1⟩, ⟨0xA7D0, 0xA7D1, 1⟩, ⟨0xA7D3, 0xA7D3, 1⟩, ⟨0xA7D5, 0xA7D9, 1⟩,
  ⟨0xA7F2, 0xA7F4, 1⟩, ⟨0xA7F5, 0xA7F6, 1⟩, ⟨0xA7F7, 0xA7F7, 1⟩, ⟨0xA7F8, 0xA7F9, 1⟩,
  ⟨0xA7FA, 0xA7FA, 1⟩, ⟨0xA7FB, 0xA7FF, 1⟩, ⟨0xA800, 0xA801, 1⟩, ⟨0xA802, 0xA802, 8⟩,
  ⟨0xA803, 0xA805, 1⟩, ⟨0xA806, 0xA806, 8⟩, ⟨0xA807, 0xA80A, 1⟩, ⟨0xA80B, 0xA80B, 8⟩,
  ⟨0xA80C, 0xA822, 1⟩, ⟨0xA823, 0xA824, 8⟩, ⟨0xA825, 0xA826, 8⟩, ⟨0xA827, 0xA827, 8⟩,
  ⟨0xA828, 0xA82B, 1⟩, ⟨0xA82C, 0xA82C, 8⟩, ⟨0xA830, 0xA835, 1⟩, ⟨0xA836, 0xA837, 1⟩,
  ⟨0xA838, 0xA838, 30⟩, ⟨0xA839, 0xA839, 1⟩, ⟨0xA840, 0xA873, 1⟩, ⟨0xA874, 0xA875, 3⟩,
  ⟨0xA876, 0xA877, 13⟩, ⟨0xA880, 0xA881, 8⟩, ⟨0xA882, 0xA8B3, 1⟩, ⟨0xA8B4, 0xA8C3, 8⟩,
  ⟨0xA8C4, 0xA8C5, 8⟩, ⟨0xA8CE, 0xA8CF, 2⟩, ⟨0xA8D0, 0xA8D9, 28⟩, ⟨0xA8E0, 0xA8F1, 8⟩,
  ⟨0xA8F2, 0xA8F7, 1⟩, ⟨0xA8F8, 0xA8FA, 1⟩, ⟨0xA8FB, 0xA8FB, 1⟩, ⟨0xA8FC, 0xA8FC, 3⟩,
  ⟨0xA8FD, 0xA8FE, 1⟩, ⟨0xA8FF, 0xA8FF, 8⟩, ⟨0xA900, 0xA909, 28⟩, ⟨0xA90A, 0xA925, 1⟩,
  ⟨0xA926, 0xA92D, 8⟩, ⟨0xA92E, 0xA92F, 2⟩, ⟨0xA930, 0xA946, 1⟩, ⟨0xA947, 0xA951, 8⟩,
  ⟨0xA952, 0xA953, 8⟩, ⟨0xA95F, 0xA95F, 1⟩, ⟨0xA960, 0xA97C, 22⟩, ⟨0xA980, 0xA982, 8⟩,
  ⟨0xA983, 0xA983, 8⟩, ⟨0xA984, 0xA9B2, 1⟩, ⟨0xA9B3, 0xA9B3, 8⟩, ⟨0xA9B4, 0xA9B5, 8⟩,
  ⟨0xA9B6, 0xA9B9, 8⟩, ⟨0xA9BA, 0xA9BB, 8⟩, ⟨0xA9BC, 0xA9BD, 8⟩, ⟨0xA9BE, 0xA9C0, 8⟩,
  ⟨0xA9C1, 0xA9C6, 1⟩, ⟨0xA9C7, 0xA9C9, 2⟩, ⟨0xA9CA, 0xA9CD, 1⟩, ⟨0xA9CF, 0xA9CF, 1⟩,
  ⟨0xA9D0, 0xA9D9, 28⟩, ⟨0xA9DE, 0xA9DF, 1⟩, ⟨0xA9E0, 0xA9E4, 1⟩, ⟨0xA9E5, 0xA9E5, 8⟩,
  ⟨0xA9E6, 0xA9E6, 1⟩, ⟨0xA9E7, 0xA9EF, 1⟩, ⟨0xA9F0, 0xA9F9, 28⟩, ⟨0xA9FA, 0xA9FE, 1⟩,
  ⟨0xAA00, 0xAA28, 1⟩, ⟨0xAA29, 0xAA2E, 8⟩, ⟨0xAA2F, 0xAA30, 8⟩, ⟨0xAA31, 0xAA32, 8⟩,
  ⟨0xAA33, 0xAA34, 8⟩, ⟨0xAA35, 0xAA36, 8⟩, ⟨0xAA40, 0xAA42, 1⟩, ⟨0xAA43, 0xAA43, 8⟩,
  ⟨0xAA44, 0xAA4B, 1⟩, ⟨0xAA4C, 0xAA4C, 8⟩, ⟨0xAA4D, 0xAA4D, 8⟩, ⟨0xAA50, 0xAA59, 28⟩,
  ⟨0xAA5C, 0xAA5C, 1⟩, ⟨0xAA5D, 0xAA5F, 2⟩, ⟨0xAA60, 0xAA6F, 1⟩, ⟨0xAA70, 0xAA70, 1⟩,
  ⟨0xAA71, 0xAA76, 1⟩, ⟨0xAA77, 0xAA79, 1⟩, ⟨0xAA7A, 0xAA7A, 1⟩, ⟨0xAA7B, 0xAA7B, 8⟩,
  ⟨0xAA7C, 0xAA7C, 8⟩, ⟨0xAA7D, 0xAA7D, 8⟩, ⟨0xAA7E, 0xAA7F, 1⟩, ⟨0xAA80, 0xAAAF, 1⟩,
  ⟨0xAAB0, 0xAAB0, 8⟩, ⟨0xAAB1, 0xAAB1, 1⟩, ⟨0xAAB2, 0xAAB4, 8⟩, ⟨0xAAB5, 0xAAB6, 1⟩,
  ⟨0xAAB7, 0xAAB8, 8⟩, ⟨0xAAB9, 0xAABD, 1⟩, ⟨0xAABE, 0xAABF, 8⟩, ⟨0xAAC0, 0xAAC0, 1⟩,
  ⟨0xAAC1, 0xAAC1, 8⟩, ⟨0xAAC2, 0xAAC2, 1⟩, ⟨0xAADB, 0xAADC, 1⟩, ⟨0xAADD, 0xAADD, 1⟩,
  ⟨0xAADE, 0xAADF, 1⟩, ⟨0xAAE0, 0xAAEA, 1⟩, ⟨0xAAEB, 0xAAEB, 8⟩, ⟨0xAAEC, 0xAAED, 8⟩,
  ⟨0xAAEE, 0xAAEF, 8⟩, ⟨0xAAF0, 0xAAF1, 2⟩, ⟨0xAAF2, 0xAAF2, 1⟩, ⟨0xAAF3, 0xAAF4, 1⟩,
  ⟨0xAAF5, 0xAAF5, 8⟩, ⟨0xAAF6, 0xAAF6, 8⟩, ⟨0xAB01, 0xAB06, 1⟩, ⟨0xAB09, 0xAB0E, 1⟩,
  ⟨0xAB11, 0xAB16, 1⟩, ⟨0xAB20, 0xAB26, 1⟩, ⟨0xAB28, 0xAB2E, 1⟩, ⟨0xAB30, 0xAB5A, 1⟩,
  ⟨0xAB5B, 0xAB5B, 1⟩, ⟨0xAB5C, 0xAB5F, 1⟩, ⟨0xAB60, 0xAB68, 1⟩, ⟨0xAB69, 0xAB69, 1⟩,
  ⟨0xAB6A, 0xAB6B, 1⟩, ⟨0xAB70, 0xABBF, 1⟩, ⟨0xABC0, 0xABE2, 1⟩, ⟨0xABE3, 0xABE4, 8⟩,
  ⟨0xABE5, 0xABE5, 8⟩, ⟨0xABE6, 0xABE7, 8⟩, ⟨0xABE8, 0xABE8, 8⟩, ⟨0xABE9, 0xABEA, 8⟩,
  ⟨0xABEB, 0xABEB, 2⟩, ⟨0xABEC, 0xABEC, 8⟩, ⟨0xABED, 0xABED, 8⟩, ⟨0xABF0, 0xABF9, 28⟩,
  ⟨0xAC00, 0xAC00, 15⟩, ⟨0xAC01, 0xAC1B, 16⟩, ⟨0xAC1C, 0xAC1C, 15⟩, ⟨0xAC1D, 0xAC37, 16⟩,
  ⟨0xAC38, 0xAC38, 15⟩, ⟨0xAC39, 0xAC53, 16⟩, ⟨0xAC54, 0xAC54, 15⟩, ⟨0xAC55, 0xAC6F, 16⟩,
  ⟨0xAC70, 0xAC70, 15⟩, ⟨0xAC71, 0xAC8B, 16⟩, ⟨0xAC8C, 0xAC8C, 15⟩, ⟨0xAC8D, 0xACA7, 16⟩,
  ⟨0xACA8, 0xACA8, 15⟩, ⟨0xACA9, 0xACC3, 16⟩, ⟨0xACC4, 0xACC4, 15⟩, ⟨0xACC5, 0xACDF, 16⟩,
  ⟨0xACE0, 0xACE0, 15⟩, ⟨0xACE1, 0xACFB, 16⟩, ⟨0xACFC, 0xACFC, 15⟩, ⟨0xACFD, 0xAD17, 16⟩,
  ⟨0xAD18, 0xAD18, 15⟩, ⟨0xAD19, 0xAD33, 16⟩, ⟨0xAD34, 0xAD34, 15⟩, ⟨0xAD35, 0xAD4F, 16⟩,
  ⟨0xAD50, 0xAD50, 15⟩, ⟨0xAD51, 0xAD6B, 16⟩, ⟨0xAD6C, 0xAD6C, 15⟩, ⟨0xAD6D, 0xAD87, 16⟩,
  ⟨0xAD88, 0xAD88, 15⟩, ⟨0xAD89, 0xADA3, 16⟩, ⟨0xADA4, 0xADA4, 15⟩, ⟨0xADA5, 0xADBF, 16⟩,
  ⟨0xADC0, 0xADC0, 15⟩, ⟨0xADC1, 0xADDB, 16⟩, ⟨0xADDC, 0xADDC, 15⟩, ⟨0xADDD, 0xADF7, 16⟩,
  ⟨0xADF8, 0xADF8, 15⟩, ⟨0xADF9, 0xAE13, 16⟩, ⟨0xAE14, 0xAE14, 15⟩, ⟨0xAE15, 0xAE2F, 16⟩,
  ⟨0xAE30, 0xAE30, 15⟩, ⟨0xAE31, 0xAE4B, 16⟩, ⟨0xAE4C, 0xAE4C, 15⟩, ⟨0xAE4D, 0xAE67, 16⟩,
  ⟨0xAE68, 0xAE68, 15⟩, ⟨0xAE69, 0xAE83, 16⟩, ⟨0xAE84, 0xAE84, 15⟩, ⟨0xAE85, 0xAE9F, 16⟩,
  ⟨0xAEA0, 0xAEA0, 15⟩, ⟨0xAEA1, 0xAEBB, 16⟩, ⟨0xAEBC, 0xAEBC, 15⟩, ⟨0xAEBD, 0xAED7, 16⟩,
  ⟨0xAED8, 0xAED8, 15⟩, ⟨0xAED9, 0xAEF3, 16⟩, ⟨0xAEF4, 0xAEF4, 15⟩, ⟨0xAEF5, 0xAF0F, 16⟩,
  ⟨0xAF10, 0xAF10, 15⟩, ⟨0xAF11, 0xAF2B, 16⟩, ⟨0xAF2C, 0xAF2C, 15⟩, ⟨0xAF2D, 0xAF47, 16⟩,
  ⟨0xAF48, 0xAF48, 15⟩, ⟨0xAF49, 0xAF63, 16⟩, ⟨0xAF64, 0xAF64, 15⟩, ⟨0xAF65, 0xAF7F, 16⟩,
  ⟨0xAF80, 0xAF80, 15⟩, ⟨0xAF81, 0xAF9B, 16⟩, ⟨0xAF9C, 0xAF9C, 15⟩, ⟨0xAF9D, 0xAFB7, 16⟩,
  ⟨0xAFB8, 0xAFB8, 15⟩, ⟨0xAFB9, 0xAFD3, 16⟩, ⟨0xAFD4, 0xAFD4, 15⟩, ⟨0xAFD5, 0xAFEF, 16⟩,
  ⟨0xAFF0, 0xAFF0, 15⟩, ⟨0xAFF1, 0xB00B, 16⟩, ⟨0xB00C, 0xB00C, 15⟩, ⟨0xB00D, 0xB027, 16⟩,
  ⟨0xB028, 0xB028, 15⟩, ⟨0xB029, 0xB043, 16⟩, ⟨0xB044, 0xB044, 15⟩, ⟨0xB045, 0xB05F, 16⟩,
  ⟨0xB060, 0xB060, 15⟩, ⟨0xB061, 0xB07B, 16⟩, ⟨0xB07C, 0xB07C, 15⟩, ⟨0xB07D, 0xB097, 16⟩,
  ⟨0xB098, 0xB098, 15⟩, ⟨0xB099, 0xB0B3, 16⟩, ⟨0xB0B4, 0xB0B4, 15⟩, ⟨0xB0B5, 0xB0CF, 16⟩,
  ⟨0xB0D0, 0xB0D0, 15⟩, ⟨0xB0D1, 0xB0EB, 16⟩]

/-- Part 7 of `lineTable`, line_break.hpp:700-1868. -/
def lineTable7 : List Range := [
  ⟨0xB0EC, 0xB0EC, 15⟩, ⟨0xB0ED, 0xB107, 16⟩, ⟨0xB108, 0xB108, 15⟩, ⟨0xB109, 0xB123, 16⟩,
  ⟨0xB124, 0xB124, 15⟩, ⟨0xB125, 0xB13F, 16⟩, ⟨0xB140, 0xB140, 15⟩, ⟨0xB141, 0xB15B, 16⟩,
  ⟨0xB15C, 0xB15C, 15⟩, ⟨0xB15D, 0xB177, 16⟩, ⟨0xB178, 0xB178, 15⟩, ⟨0xB179, 0xB193, 16⟩,
  ⟨0xB194, 0xB194, 15⟩, ⟨0xB195, 0xB1AF, 16⟩, ⟨0xB1B0, 0xB1B0, 15⟩, ⟨0xB1B1, 0xB1CB, 16⟩,
  ⟨0xB1CC, 0xB1CC, 15⟩, ⟨0xB1CD, 0xB1E7, 16⟩, ⟨0xB1E8, 0xB1E8, 15⟩, ⟨0xB1E9, 0xB203, 16⟩,
  ⟨0xB204, 0xB204, 15⟩, ⟨0xB205, 0xB21F, 16⟩, ⟨0xB220, 0xB220, 15⟩, ⟨0xB221, 0xB23B, 16⟩,
  ⟨0xB23C, 0xB23C, 15⟩, ⟨0xB23D, 0xB257, 16⟩, ⟨0xB258, 0xB258, 15⟩, ⟨0xB259, 0xB273, 16⟩,
  ⟨0xB274, 0xB274, 15⟩, ⟨0xB275, 0xB28F, 16⟩, ⟨0xB290, 0xB290, 15⟩, ⟨0xB291, 0xB2AB, 16⟩,
  ⟨0xB2AC, 0xB2AC, 15⟩, ⟨0xB2AD, 0xB2C7, 16⟩, ⟨0xB2C8, 0xB2C8, 15⟩, ⟨0xB2C9, 0xB2E3, 16⟩,
  ⟨0xB2E4, 0xB2E4, 15⟩, ⟨0xB2E5, 0xB2FF, 16⟩, ⟨0xB300, 0xB300, 15⟩, ⟨0xB301, 0xB31B, 16⟩,
  ⟨0xB31C, 0xB31C, 15⟩, ⟨0xB31D, 0xB337, 16⟩, ⟨0xB338, 0xB338, 15⟩, ⟨0xB339, 0xB353, 16⟩,
  ⟨0xB354, 0xB354, 15⟩, ⟨0xB355, 0xB36F, 16⟩, ⟨0xB370, 0xB370, 15⟩, ⟨0xB371, 0xB38B, 16⟩,
  ⟨0xB38C, 0xB38C, 15⟩, ⟨0xB38D, 0xB3A7, 16⟩, ⟨0xB3A8, 0xB3A8, 15⟩, ⟨0xB3A9, 0xB3C3, 16⟩,
  ⟨0xB3C4, 0xB3C4, 15⟩, ⟨0xB3C5, 0xB3DF, 16⟩, ⟨0xB3E0, 0xB3E0, 15⟩, ⟨0xB3E1, 0xB3FB, 16⟩,
  ⟨0xB3FC, 0xB3FC, 15⟩, ⟨0xB3FD, 0xB417, 16⟩, ⟨0xB418, 0xB418, 15⟩, ⟨0xB419, 0xB433, 16⟩,
  ⟨0xB434, 0xB434, 15⟩, ⟨0xB435, 0xB44F, 16⟩, ⟨0xB450, 0xB450, 15⟩, ⟨0xB451, 0xB46B, 16⟩,
  ⟨0xB46C, 0xB46C, 15⟩, ⟨0xB46D, 0xB487, 16⟩, ⟨0xB488, 0xB488, 15⟩, ⟨0xB489, 0xB4A3, 16⟩,
  ⟨0xB4A4, 0xB4A4, 15⟩, ⟨0xB4A5, 0xB4BF, 16⟩, ⟨0xB4C0, 0xB4C0, 15⟩, ⟨0xB4C1, 0xB4DB, 16⟩,
  ⟨0xB4DC, 0xB4DC, 15⟩, ⟨0xB4DD, 0xB4F7, 16⟩, ⟨0xB4F8, 0xB4F8, 15⟩, ⟨0xB4F9, 0xB513, 16⟩,
  ⟨0xB514, 0xB514, 15⟩, ⟨0xB515, 0xB52F, 16⟩, ⟨0xB530, 0xB530, 15⟩, ⟨0xB531, 0xB54B, 16⟩,
  ⟨0xB54C, 0xB54C, 15⟩, ⟨0xB54D, 0xB567, 16⟩, ⟨0xB568, 0xB568, 15⟩, ⟨0xB569, 0xB583, 16⟩,
  ⟨0xB584, 0xB584, 15⟩, ⟨0xB585, 0xB59F, 16⟩, ⟨0xB5A0, 0xB5A0, 15⟩, ⟨0xB5A1, 0xB5BB, 16⟩,
  ⟨0xB5BC, 0xB5BC, 15⟩, ⟨0xB5BD, 0xB5D7, 16⟩, ⟨0xB5D8, 0xB5D8, 15⟩, ⟨0xB5D9, 0xB5F3, 16⟩,
  ⟨0xB5F4, 0xB5F4, 15⟩, ⟨0xB5F5, 0xB60F, 16⟩, ⟨0xB610, 0xB610, 15⟩, ⟨0xB611, 0xB62B, 16⟩,
  ⟨0xB62C, 0xB62C, 15⟩, ⟨0xB62D, 0xB647, 16⟩, ⟨0xB648, 0xB648, 15⟩, ⟨0xB649, 0xB663, 16⟩,
  ⟨0xB664, 0xB664, 15⟩, ⟨0xB665, 0xB67F, 16⟩, ⟨0xB680, 0xB680, 15⟩, ⟨0xB681, 0xB69B, 16⟩,
  ⟨0xB69C, 0xB69C, 15⟩, ⟨0xB69D, 0xB6B7, 16⟩, ⟨0xB6B8, 0xB6B8, 15⟩, ⟨0xB6B9, 0xB6D3, 16⟩,
  ⟨0xB6D4, 0xB6D4, 15⟩, ⟨0xB6D5, 0xB6EF, 16⟩, ⟨0xB6F0, 0xB6F0, 15⟩, ⟨0xB6F1, 0xB70B, 16⟩,
  ⟨0xB70C, 0xB70C, 15⟩, ⟨0xB70D, 0xB727, 16⟩, ⟨0xB728, 0xB728, 15⟩, ⟨0xB729, 0xB743, 16⟩,
  ⟨0xB744, 0xB744, 15⟩, ⟨0xB745, 0xB75F, 16⟩, ⟨0xB760, 0xB760, 15⟩, ⟨0xB761, 0xB77B, 16⟩,
  ⟨0xB77C, 0xB77C, 15⟩, ⟨0xB77D, 0xB797, 16⟩, ⟨0xB798, 0xB798, 15⟩, ⟨0xB799, 0xB7B3, 16⟩,
  ⟨0xB7B4, 0xB7B4, 15⟩, ⟨0xB7B5, 0xB7CF, 16⟩, ⟨0xB7D0, 0xB7D0, 15⟩, ⟨0xB7D1, 0xB7EB, 16⟩,
  ⟨0xB7EC, 0xB7EC, 15⟩, ⟨0xB7ED, 0xB807, 16⟩, ⟨0xB808, 0xB808, 15⟩, ⟨0xB809, 0xB823, 16⟩,
  ⟨0xB824, 0xB824, 15⟩, ⟨0xB825, 0xB83F, 16⟩, ⟨0xB840, 0xB840, 15⟩, ⟨0xB841, 0xB85B, 16⟩,
  ⟨0xB85C, 0xB85C, 15⟩, ⟨0xB85D, 0xB877, 16⟩, ⟨0xB878, 0xB878, 15⟩, ⟨0xB879, 0xB893, 16⟩,
  ⟨0xB894, 0xB894, 15⟩, ⟨0xB895, 0xB8AF, 16⟩, ⟨0xB8B0, 0xB8B0, 15⟩, ⟨0xB8B1, 0xB8CB, 16⟩,
  ⟨0xB8CC, 0xB8CC, 15⟩, ⟨0xB8CD, 0xB8E7, 16⟩, ⟨0xB8E8, 0xB8E8, 15⟩, ⟨0xB8E9, 0xB903, 16⟩,
  ⟨0xB904, 0xB904, 15⟩, ⟨0xB905, 0xB91F, 16⟩, ⟨0xB920, 0xB920, 15⟩, ⟨0xB921, 0xB93B, 16⟩,
  ⟨0xB93C, 0xB93C, 15⟩, ⟨0xB93D, 0xB957, 16⟩, ⟨0xB958, 0xB958, 15⟩, ⟨0xB959, 0xB973, 16⟩,
  ⟨0xB974, 0xB974, 15⟩, ⟨0xB975, 0xB98F, 16⟩, ⟨0xB990, 0xB990, 15⟩, ⟨0xB991, 0xB9AB, 16⟩,
  ⟨0xB9AC, 0xB9AC, 15⟩, ⟨0xB9AD, 0xB9C7, 16⟩, ⟨0xB9C8, 0xB9C8, 15⟩, ⟨0xB9C9, 0xB9E3, 16⟩,
  ⟨0xB9E4, 0xB9E4, 15⟩, ⟨0xB9E5, 0xB9FF, 16⟩, ⟨0xBA00, 0xBA00, 15⟩, ⟨0xBA01, 0xBA1B, 16⟩,
  ⟨0xBA1C, 0xBA1C, 15⟩, ⟨0xBA1D, 0xBA37, 16⟩, ⟨0xBA38, 0xBA38, 15⟩, ⟨0xBA39, 0xBA53, 16⟩,
  ⟨0xBA54, 0xBA54, 15⟩, ⟨0xBA55, 0xBA6F, 16⟩, ⟨0xBA70, 0xBA70, 15⟩, ⟨0xBA71, 0xBA8B, 16⟩,
  ⟨0xBA8C, 0xBA8C, 15⟩, ⟨0xBA8D, 0xBAA7, 16⟩, ⟨0xBAA8, 0xBAA8, 15⟩, ⟨0xBAA9, 0xBAC3, 16⟩,
  ⟨0xBAC4, 0xBAC4, 15⟩, ⟨0xBAC5, 0xBADF, 16⟩, ⟨0xBAE0, 0xBAE0, 15⟩, ⟨0xBAE1, 0xBAFB, 16⟩,
  ⟨0xBAFC, 0xBAFC, 15⟩, ⟨0xBAFD, 0xBB17, 16⟩, ⟨0xBB18, 0xBB18, 15⟩, ⟨0xBB19, 0xBB33, 16⟩,
  ⟨0xBB34, 0xBB34, 15⟩, ⟨0xBB35, 0xBB4F, 16⟩, ⟨0xBB50, 0xBB50, 15⟩, ⟨0xBB51, 0xBB6B, 16⟩,
  ⟨0xBB6C, 0xBB6C, 15⟩, ⟨0xBB6D, 0xBB87, 16⟩, ⟨0xBB88, 0xBB88, 15⟩, ⟨0xBB89, 0xBBA3, 16⟩,
  ⟨0xBBA4, 0xBBA4, 15⟩, ⟨0xBBA5, 0xBBBF, 16⟩, ⟨0xBBC0, 0xBBC0, 15⟩, ⟨0xBBC1, 0xBBDB, 16⟩,
  ⟨0xBBDC, 0xBBDC, 15⟩, ⟨0xBBDD, 0xBBF7, 16⟩, ⟨0xBBF8, 0xBBF8, 15⟩, ⟨0xBBF9, 0xBC13, 16⟩,
  ⟨0xBC14, 0xBC14, 15⟩, ⟨0xBC15, 0xBC2F, 16⟩, ⟨0xBC30, 0xBC30, 15⟩, ⟨0xBC31, 0xBC4B, 16⟩,
  ⟨0xBC4C, 0xBC4C, 15⟩, ⟨0xBC4D, 0xBC67, 16⟩, ⟨0xBC68, 0xBC68, 15⟩, ⟨0xBC69, 0xBC83, 16⟩,
  ⟨0xBC84, 0xBC84, 15⟩, ⟨0xBC85, 0xBC9F, 16⟩, ⟨0xBCA0, 0xBCA0, 15⟩, ⟨0xBCA1, 0xBCBB, 16⟩,
  ⟨0xBCBC, 0xBCBC, 15⟩, ⟨0xBCBD, 0xBCD7, 16⟩, ⟨0xBCD8, 0xBCD8, 15⟩, ⟨0xBCD9, 0xBCF3, 16⟩,
  ⟨0xBCF4, 0xBCF4, 15⟩, ⟨0xBCF5, 0xBD0F, 16⟩, ⟨0xBD10, 0xBD10, 15⟩, ⟨0xBD11, 0xBD2B, 16⟩,
  ⟨0xBD2C, 0xBD2C, 15⟩, ⟨0xBD2D, 0xBD47, 16⟩, ⟨0xBD48, 0xBD48, 15⟩, ⟨0xBD49, 0xBD63, 16⟩,
  ⟨0xBD64, 0xBD64, 15⟩, ⟨0xBD65, 0xBD7F, 16⟩, ⟨0xBD80, 0xBD80, 15⟩, ⟨0xBD81, 0xBD9B, 16⟩,
  ⟨0xBD9C, 0xBD9C, 15⟩, ⟨0xBD9D, 0xBDB7, 16⟩, ⟨0xBDB8, 0xBDB8, 15⟩, ⟨0xBDB9, 0xBDD3, 16⟩,
  ⟨0xBDD4, 0xBDD4, 15⟩, ⟨0xBDD5, 0xBDEF, 16⟩, ⟨0xBDF0, 0xBDF0, 15⟩, ⟨0xBDF1, 0xBE0B, 16⟩,
  ⟨0xBE0C, 0xBE0C, 15⟩, ⟨0xBE0D, 0xBE27, 16⟩, ⟨0xBE28, 0xBE28, 15⟩, ⟨0xBE29, 0xBE43, 16⟩,
  ⟨0xBE44, 0xBE44, 15⟩, ⟨0xBE45, 0xBE5F, 16⟩, ⟨0xBE60, 0xBE60, 15⟩, ⟨0xBE61, 0xBE7B, 16⟩,
  ⟨0xBE7C, 0xBE7C, 15⟩, ⟨0xBE7D, 0xBE97, 16⟩]

/-- Part 8 of `lineTable`, line_break.hpp:700-1868. -/
def lineTable8 : List Range := [
  ⟨0xBE98, 0xBE98, 15⟩, ⟨0xBE99, 0xBEB3, 16⟩, ⟨0xBEB4, 0xBEB4, 15⟩, ⟨0xBEB5, 0xBECF, 16⟩,
  ⟨0xBED0, 0xBED0, 15⟩, ⟨0xBED1, 0xBEEB, 16⟩, ⟨0xBEEC, 0xBEEC, 15⟩, ⟨0xBEED, 0xBF07, 16⟩,
  ⟨0xBF08, 0xBF08, 15⟩, ⟨0xBF09, 0xBF23, 16⟩, ⟨0xBF24, 0xBF24, 15⟩, ⟨0xBF25, 0xBF3F, 16⟩,
  ⟨0xBF40, 0xBF40, 15⟩, ⟨0xBF41, 0xBF5B, 16⟩, ⟨0xBF5C, 0xBF5C, 15⟩, ⟨0xBF5D, 0xBF77, 16⟩,
  ⟨0xBF78, 0xBF78, 15⟩, ⟨0xBF79, 0xBF93, 16⟩, ⟨0xBF94, 0xBF94, 15⟩, ⟨0xBF95, 0xBFAF, 16⟩,
  ⟨0xBFB0, 0xBFB0, 15⟩, ⟨0xBFB1, 0xBFCB, 16⟩, ⟨0xBFCC, 0xBFCC, 15⟩, ⟨0xBFCD, 0xBFE7, 16⟩,
  ⟨0xBFE8, 0xBFE8, 15⟩, ⟨0xBFE9, 0xC003, 16⟩, ⟨0xC004, 0xC004, 15⟩, ⟨0xC005, 0xC01F, 16⟩,
  ⟨0xC020, 0xC020, 15⟩, ⟨0xC021, 0xC03B, 16⟩, ⟨0xC03C, 0xC03C, 15⟩, ⟨0xC03D, 0xC057, 16⟩,
  ⟨0xC058, 0xC058, 15⟩, ⟨0xC059, 0xC073, 16⟩, ⟨0xC074, 0xC074, 15⟩, ⟨0xC075, 0xC08F, 16⟩,
  ⟨0xC090, 0xC090, 15⟩, ⟨0xC091, 0xC0AB, 16⟩, ⟨0xC0AC, 0xC0AC, 15⟩, ⟨0xC0AD, 0xC0C7, 16⟩,
  ⟨0xC0C8, 0xC0C8, 15⟩, ⟨0xC0C9, 0xC0E3, 16⟩, ⟨0xC0E4, 0xC0E4, 15⟩, ⟨0xC0E5, 0xC0FF, 16⟩,
  ⟨0xC100, 0xC100, 15⟩, ⟨0xC101, 0xC11B, 16⟩, ⟨0xC11C, 0xC11C, 15⟩, ⟨0xC11D, 0xC137, 16⟩,
  ⟨0xC138, 0xC138, 15⟩, ⟨0xC139, 0xC153, 16⟩, ⟨0xC154, 0xC154, 15⟩, ⟨0xC155, 0xC16F, 16⟩,
  ⟨0xC170, 0xC170, 15⟩, ⟨0xC171, 0xC18B, 16⟩, ⟨0xC18C, 0xC18C, 15⟩, ⟨0xC18D, 0xC1A7, 16⟩,
  ⟨0xC1A8, 0xC1A8, 15⟩, ⟨0xC1A9, 0xC1C3, 16⟩, ⟨0xC1C4, 0xC1C4, 15⟩, ⟨0xC1C5, 0xC1DF, 16⟩,
  ⟨0xC1E0, 0xC1E0, 15⟩, ⟨0xC1E1, 0xC1FB, 16⟩, ⟨0xC1FC, 0xC1FC, 15⟩, ⟨0xC1FD, 0xC217, 16⟩,
  ⟨0xC218, 0xC218, 15⟩, ⟨0xC219, 0xC233, 16⟩, ⟨0xC234, 0xC234, 15⟩, ⟨0xC235, 0xC24F, 16⟩,
  ⟨0xC250, 0xC250, 15⟩, ⟨0xC251, 0xC26B, 16⟩, ⟨0xC26C, 0xC26C, 15⟩, ⟨0xC26D, 0xC287, 16⟩,
  ⟨0xC288, 0xC288, 15⟩, ⟨0xC289, 0xC2A3, 16⟩, ⟨0xC2A4, 0xC2A4, 15⟩, ⟨0xC2A5, 0xC2BF, 16⟩,
  ⟨0xC2C0, 0xC2C0, 15⟩, ⟨0xC2C1, 0xC2DB, 16⟩, ⟨0xC2DC, 0xC2DC, 15⟩, ⟨0xC2DD, 0xC2F7, 16⟩,
  ⟨0xC2F8, 0xC2F8, 15⟩, ⟨0xC2F9, 0xC313, 16⟩, ⟨0xC314, 0xC314, 15⟩, ⟨0xC315, 0xC32F, 16⟩,
  ⟨0xC330, 0xC330, 15⟩, ⟨0xC331, 0xC34B, 16⟩, ⟨0xC34C, 0xC34C, 15⟩, ⟨0xC34D, 0xC367, 16⟩,
  ⟨0xC368, 0xC368, 15⟩, ⟨0xC369, 0xC383, 16⟩, ⟨0xC384, 0xC384, 15⟩, ⟨0xC385, 0xC39F, 16⟩,
  ⟨0xC3A0, 0xC3A0, 15⟩, ⟨0xC3A1, 0xC3BB, 16⟩, ⟨0xC3BC, 0xC3BC, 15⟩, ⟨0xC3BD, 0xC3D7, 16⟩,
  ⟨0xC3D8, 0xC3D8, 15⟩, ⟨0xC3D9, 0xC3F3, 16⟩, ⟨0xC3F4, 0xC3F4, 15⟩, ⟨0xC3F5, 0xC40F, 16⟩,
  ⟨0xC410, 0xC410, 15⟩, ⟨0xC411, 0xC42B, 16⟩, ⟨0xC42C, 0xC42C, 15⟩, ⟨0xC42D, 0xC447, 16⟩,
  ⟨0xC448, 0xC448, 15⟩, ⟨0xC449, 0xC463, 16⟩, ⟨0xC464, 0xC464, 15⟩, ⟨0xC465, 0xC47F, 16⟩,
  ⟨0xC480, 0xC480, 15⟩, ⟨0xC481, 0xC49B, 16⟩, ⟨0xC49C, 0xC49C, 15⟩, ⟨0xC49D, 0xC4B7, 16⟩,
  ⟨0xC4B8, 0xC4B8, 15⟩, ⟨0xC4B9, 0xC4D3, 16⟩, ⟨0xC4D4, 0xC4D4, 15⟩, ⟨0xC4D5, 0xC4EF, 16⟩,
  ⟨0xC4F0, 0xC4F0, 15⟩, ⟨0xC4F1, 0xC50B, 16⟩, ⟨0xC50C, 0xC50C, 15⟩, ⟨0xC50D, 0xC527, 16⟩,
  ⟨0xC528, 0xC528, 15⟩, ⟨0xC529, 0xC543, 16⟩, ⟨0xC544, 0xC544, 15⟩, ⟨0xC545, 0xC55F, 16⟩,
  ⟨0xC560, 0xC560, 15⟩, ⟨0xC561, 0xC57B, 16⟩, ⟨0xC57C, 0xC57C, 15⟩, ⟨0xC57D, 0xC597, 16⟩,
  ⟨0xC598, 0xC598, 15⟩, ⟨0xC599, 0xC5B3, 16⟩, ⟨0xC5B4, 0xC5B4, 15⟩, ⟨0xC5B5, 0xC5CF, 16⟩,
  ⟨0xC5D0, 0xC5D0, 15⟩, ⟨0xC5D1, 0xC5EB, 16⟩, ⟨0xC5EC, 0xC5EC, 15⟩, ⟨0xC5ED, 0xC607, 16⟩,
  ⟨0xC608, 0xC608, 15⟩, ⟨0xC609, 0xC623, 16⟩, ⟨0xC624, 0xC624, 15⟩, ⟨0xC625, 0xC63F, 16⟩,
  ⟨0xC640, 0xC640, 15⟩, ⟨0xC641, 0xC65B, 16⟩, ⟨0xC65C, 0xC65C, 15⟩, ⟨0xC65D, 0xC677, 16⟩,
  ⟨0xC678, 0xC678, 15⟩, ⟨0xC679, 0xC693, 16⟩, ⟨0xC694, 0xC694, 15⟩, ⟨0xC695, 0xC6AF, 16⟩,
  ⟨0xC6B0, 0xC6B0, 15⟩, ⟨0xC6B1, 0xC6CB, 16⟩, ⟨0xC6CC, 0xC6CC, 15⟩, ⟨0xC6CD, 0xC6E7, 16⟩,
  ⟨0xC6E8, 0xC6E8, 15⟩, ⟨0xC6E9, 0xC703, 16⟩, ⟨0xC704, 0xC704, 15⟩, ⟨0xC705, 0xC71F, 16⟩,
  ⟨0xC720, 0xC720, 15⟩, ⟨0xC721, 0xC73B, 16⟩, ⟨0xC73C, 0xC73C, 15⟩, ⟨0xC73D, 0xC757, 16⟩,
  ⟨0xC758, 0xC758, 15⟩, ⟨0xC759, 0xC773, 16⟩, ⟨0xC774, 0xC774, 15⟩, ⟨0xC775, 0xC78F, 16⟩,
  ⟨0xC790, 0xC790, 15⟩, ⟨0xC791, 0xC7AB, 16⟩, ⟨0xC7AC, 0xC7AC, 15⟩, ⟨0xC7AD, 0xC7C7, 16⟩,
  ⟨0xC7C8, 0xC7C8, 15⟩, ⟨0xC7C9, 0xC7E3, 16⟩, ⟨0xC7E4, 0xC7E4, 15⟩, ⟨0xC7E5, 0xC7FF, 16⟩,
  ⟨0xC800, 0xC800, 15⟩, ⟨0xC801, 0xC81B, 16⟩, ⟨0xC81C, 0xC81C, 15⟩, ⟨0xC81D, 0xC837, 16⟩,
  ⟨0xC838, 0xC838, 15⟩, ⟨0xC839, 0xC853, 16⟩, ⟨0xC854, 0xC854, 15⟩, ⟨0xC855, 0xC86F, 16⟩,
  ⟨0xC870, 0xC870, 15⟩, ⟨0xC871, 0xC88B, 16⟩, ⟨0xC88C, 0xC88C, 15⟩, ⟨0xC88D, 0xC8A7, 16⟩,
  ⟨0xC8A8, 0xC8A8, 15⟩, ⟨0xC8A9, 0xC8C3, 16⟩, ⟨0xC8C4, 0xC8C4, 15⟩, ⟨0xC8C5, 0xC8DF, 16⟩,
  ⟨0xC8E0, 0xC8E0, 15⟩, ⟨0xC8E1, 0xC8FB, 16⟩, ⟨0xC8FC, 0xC8FC, 15⟩, ⟨0xC8FD, 0xC917, 16⟩,
  ⟨0xC918, 0xC918, 15⟩, ⟨0xC919, 0xC933, 16⟩, ⟨0xC934, 0xC934, 15⟩, ⟨0xC935, 0xC94F, 16⟩,
  ⟨0xC950, 0xC950, 15⟩, ⟨0xC951, 0xC96B, 16⟩, ⟨0xC96C, 0xC96C, 15⟩, ⟨0xC96D, 0xC987, 16⟩,
  ⟨0xC988, 0xC988, 15⟩, ⟨0xC989, 0xC9A3, 16⟩, ⟨0xC9A4, 0xC9A4, 15⟩, ⟨0xC9A5, 0xC9BF, 16⟩,
  ⟨0xC9C0, 0xC9C0, 15⟩, ⟨0xC9C1, 0xC9DB, 16⟩, ⟨0xC9DC, 0xC9DC, 15⟩, ⟨0xC9DD, 0xC9F7, 16⟩,
  ⟨0xC9F8, 0xC9F8, 15⟩, ⟨0xC9F9, 0xCA13, 16⟩, ⟨0xCA14, 0xCA14, 15⟩, ⟨0xCA15, 0xCA2F, 16⟩,
  ⟨0xCA30, 0xCA30, 15⟩, ⟨0xCA31, 0xCA4B, 16⟩, ⟨0xCA4C, 0xCA4C, 15⟩, ⟨0xCA4D, 0xCA67, 16⟩,
  ⟨0xCA68, 0xCA68, 15⟩, ⟨0xCA69, 0xCA83, 16⟩, ⟨0xCA84, 0xCA84, 15⟩, ⟨0xCA85, 0xCA9F, 16⟩,
  ⟨0xCAA0, 0xCAA0, 15⟩, ⟨0xCAA1, 0xCABB, 16⟩, ⟨0xCABC, 0xCABC, 15⟩, ⟨0xCABD, 0xCAD7, 16⟩,
  ⟨0xCAD8, 0xCAD8, 15⟩, ⟨0xCAD9, 0xCAF3, 16⟩, ⟨0xCAF4, 0xCAF4, 15⟩, ⟨0xCAF5, 0xCB0F, 16⟩,
  ⟨0xCB10, 0xCB10, 15⟩, ⟨0xCB11, 0xCB2B, 16⟩, ⟨0xCB2C, 0xCB2C, 15⟩, ⟨0xCB2D, 0xCB47, 16⟩,
  ⟨0xCB48, 0xCB48, 15⟩, ⟨0xCB49, 0xCB63, 16⟩, ⟨0xCB64, 0xCB64, 15⟩, ⟨0xCB65, 0xCB7F, 16⟩,
  ⟨0xCB80, 0xCB80, 15⟩, ⟨0xCB81, 0xCB9B, 16⟩, ⟨0xCB9C, 0xCB9C, 15⟩, ⟨0xCB9D, 0xCBB7, 16⟩,
  ⟨0xCBB8, 0xCBB8, 15⟩, ⟨0xCBB9, 0xCBD3, 16⟩, ⟨0xCBD4, 0xCBD4, 15⟩, ⟨0xCBD5, 0xCBEF, 16⟩,
  ⟨0xCBF0, 0xCBF0, 15⟩, ⟨0xCBF1, 0xCC0B, 16⟩, ⟨0xCC0C, 0xCC0C, 15⟩, ⟨0xCC0D, 0xCC27, 16⟩,
  ⟨0xCC28, 0xCC28, 15⟩, ⟨0xCC29, 0xCC43, 16⟩]

/-- Part 9 of `lineTable`, line_break.hpp:700-1868. -/
def lineTable9 : List Range := [
  ⟨0xCC44, 0xCC44, 15⟩, ⟨0xCC45, 0xCC5F, 16⟩, ⟨0xCC60, 0xCC60, 15⟩, ⟨0xCC61, 0xCC7B, 16⟩,
  ⟨0xCC7C, 0xCC7C, 15⟩, ⟨0xCC7D, 0xCC97, 16⟩, ⟨0xCC98, 0xCC98, 15⟩, ⟨0xCC99, 0xCCB3, 16⟩,
  ⟨0xCCB4, 0xCCB4, 15⟩, ⟨0xCCB5, 0xCCCF, 16⟩, ⟨0xCCD0, 0xCCD0, 15⟩, ⟨0xCCD1, 0xCCEB, 16⟩,
  ⟨0xCCEC, 0xCCEC, 15⟩, ⟨0xCCED, 0xCD07, 16⟩, ⟨0xCD08, 0xCD08, 15⟩, ⟨0xCD09, 0xCD23, 16⟩,
  ⟨0xCD24, 0xCD24, 15⟩, ⟨0xCD25, 0xCD3F, 16⟩, ⟨0xCD40, 0xCD40, 15⟩, ⟨0xCD41, 0xCD5B, 16⟩,
  ⟨0xCD5C, 0xCD5C, 15⟩, ⟨0xCD5D, 0xCD77, 16⟩, ⟨0xCD78, 0xCD78, 15⟩, ⟨0xCD79, 0xCD93, 16⟩,
  ⟨0xCD94, 0xCD94, 15⟩, ⟨0xCD95, 0xCDAF, 16⟩, ⟨0xCDB0, 0xCDB0, 15⟩, ⟨0xCDB1, 0xCDCB, 16⟩,
  ⟨0xCDCC, 0xCDCC, 15⟩, ⟨0xCDCD, 0xCDE7, 16⟩, ⟨0xCDE8, 0xCDE8, 15⟩, ⟨0xCDE9, 0xCE03, 16⟩,
  ⟨0xCE04, 0xCE04, 15⟩, ⟨0xCE05, 0xCE1F, 16⟩, ⟨0xCE20, 0xCE20, 15⟩, ⟨0xCE21, 0xCE3B, 16⟩,
  ⟨0xCE3C, 0xCE3C, 15⟩, ⟨0xCE3D, 0xCE57, 16⟩, ⟨0xCE58, 0xCE58, 15⟩, ⟨0xCE59, 0xCE73, 16⟩,
  ⟨0xCE74, 0xCE74, 15⟩, ⟨0xCE75, 0xCE8F, 16⟩, ⟨0xCE90, 0xCE90, 15⟩, ⟨0xCE91, 0xCEAB, 16⟩,
  ⟨0xCEAC, 0xCEAC, 15⟩, ⟨0xCEAD, 0xCEC7, 16⟩, ⟨0xCEC8, 0xCEC8, 15⟩, ⟨0xCEC9, 0xCEE3, 16⟩,
  ⟨0xCEE4, 0xCEE4, 15⟩, ⟨0xCEE5, 0xCEFF, 16⟩, ⟨0xCF00, 0xCF00, 15⟩, ⟨0xCF01, 0xCF1B, 16⟩,
  ⟨0xCF1C, 0xCF1C, 15⟩, ⟨0xCF1D, 0xCF37, 16⟩, ⟨0xCF38, 0xCF38, 15⟩, ⟨0xCF39, 0xCF53, 16⟩,
  ⟨0xCF54, 0xCF54, 15⟩, ⟨0xCF55, 0xCF6F, 16⟩, ⟨0xCF70, 0xCF70, 15⟩, ⟨0xCF71, 0xCF8B, 16⟩,
  ⟨0xCF8C, 0xCF8C, 15⟩, ⟨0xCF8D, 0xCFA7, 16⟩, ⟨0xCFA8, 0xCFA8, 15⟩, ⟨0xCFA9, 0xCFC3, 16⟩,
  ⟨0xCFC4, 0xCFC4, 15⟩, ⟨0xCFC5, 0xCFDF, 16⟩, ⟨0xCFE0, 0xCFE0, 15⟩, ⟨0xCFE1, 0xCFFB, 16⟩,
  ⟨0xCFFC, 0xCFFC, 15⟩, ⟨0xCFFD, 0xD017, 16⟩, ⟨0xD018, 0xD018, 15⟩, ⟨0xD019, 0xD033, 16⟩,
  ⟨0xD034, 0xD034, 15⟩, ⟨0xD035, 0xD04F, 16⟩, ⟨0xD050, 0xD050, 15⟩, ⟨0xD051, 0xD06B, 16⟩,
  ⟨0xD06C, 0xD06C, 15⟩, ⟨0xD06D, 0xD087, 16⟩, ⟨0xD088, 0xD088, 15⟩, ⟨0xD089, 0xD0A3, 16⟩,
  ⟨0xD0A4, 0xD0A4, 15⟩, ⟨0xD0A5, 0xD0BF, 16⟩, ⟨0xD0C0, 0xD0C0, 15⟩, ⟨0xD0C1, 0xD0DB, 16⟩,
  ⟨0xD0DC, 0xD0DC, 15⟩, ⟨0xD0DD, 0xD0F7, 16⟩, ⟨0xD0F8, 0xD0F8, 15⟩, ⟨0xD0F9, 0xD113, 16⟩,
  ⟨0xD114, 0xD114, 15⟩, ⟨0xD115, 0xD12F, 16⟩, ⟨0xD130, 0xD130, 15⟩, ⟨0xD131, 0xD14B, 16⟩,
  ⟨0xD14C, 0xD14C, 15⟩, ⟨0xD14D, 0xD167, 16⟩, ⟨0xD168, 0xD168, 15⟩, ⟨0xD169, 0xD183, 16⟩,
  ⟨0xD184, 0xD184, 15⟩, ⟨0xD185, 0xD19F, 16⟩, ⟨0xD1A0, 0xD1A0, 15⟩, ⟨0xD1A1, 0xD1BB, 16⟩,
  ⟨0xD1BC, 0xD1BC, 15⟩, ⟨0xD1BD, 0xD1D7, 16⟩, ⟨0xD1D8, 0xD1D8, 15⟩, ⟨0xD1D9, 0xD1F3, 16⟩,
  ⟨0xD1F4, 0xD1F4, 15⟩, ⟨0xD1F5, 0xD20F, 16⟩, ⟨0xD210, 0xD210, 15⟩, ⟨0xD211, 0xD22B, 16⟩,
  ⟨0xD22C, 0xD22C, 15⟩, ⟨0xD22D, 0xD247, 16⟩, ⟨0xD248, 0xD248, 15⟩, ⟨0xD249, 0xD263, 16⟩,
  ⟨0xD264, 0xD264, 15⟩, ⟨0xD265, 0xD27F, 16⟩, ⟨0xD280, 0xD280, 15⟩, ⟨0xD281, 0xD29B, 16⟩,
  ⟨0xD29C, 0xD29C, 15⟩, ⟨0xD29D, 0xD2B7, 16⟩, ⟨0xD2B8, 0xD2B8, 15⟩, ⟨0xD2B9, 0xD2D3, 16⟩,
  ⟨0xD2D4, 0xD2D4, 15⟩, ⟨0xD2D5, 0xD2EF, 16⟩, ⟨0xD2F0, 0xD2F0, 15⟩, ⟨0xD2F1, 0xD30B, 16⟩,
  ⟨0xD30C, 0xD30C, 15⟩, ⟨0xD30D, 0xD327, 16⟩, ⟨0xD328, 0xD328, 15⟩, ⟨0xD329, 0xD343, 16⟩,
  ⟨0xD344, 0xD344, 15⟩, ⟨0xD345, 0xD35F, 16⟩, ⟨0xD360, 0xD360, 15⟩, ⟨0xD361, 0xD37B, 16⟩,
  ⟨0xD37C, 0xD37C, 15⟩, ⟨0xD37D, 0xD397, 16⟩, ⟨0xD398, 0xD398, 15⟩, ⟨0xD399, 0xD3B3, 16⟩,
  ⟨0xD3B4, 0xD3B4, 15⟩, ⟨0xD3B5, 0xD3CF, 16⟩, ⟨0xD3D0, 0xD3D0, 15⟩, ⟨0xD3D1, 0xD3EB, 16⟩,
  ⟨0xD3EC, 0xD3EC, 15⟩, ⟨0xD3ED, 0xD407, 16⟩, ⟨0xD408, 0xD408, 15⟩, ⟨0xD409, 0xD423, 16⟩,
  ⟨0xD424, 0xD424, 15⟩, ⟨0xD425, 0xD43F, 16⟩, ⟨0xD440, 0xD440, 15⟩, ⟨0xD441, 0xD45B, 16⟩,
  ⟨0xD45C, 0xD45C, 15⟩, ⟨0xD45D, 0xD477, 16⟩, ⟨0xD478, 0xD478, 15⟩, ⟨0xD479, 0xD493, 16⟩,
  ⟨0xD494, 0xD494, 15⟩, ⟨0xD495, 0xD4AF, 16⟩, ⟨0xD4B0, 0xD4B0, 15⟩, ⟨0xD4B1, 0xD4CB, 16⟩,
  ⟨0xD4CC, 0xD4CC, 15⟩, ⟨0xD4CD, 0xD4E7, 16⟩, ⟨0xD4E8, 0xD4E8, 15⟩, ⟨0xD4E9, 0xD503, 16⟩,
  ⟨0xD504, 0xD504, 15⟩, ⟨0xD505, 0xD51F, 16⟩, ⟨0xD520, 0xD520, 15⟩, ⟨0xD521, 0xD53B, 16⟩,
  ⟨0xD53C, 0xD53C, 15⟩, ⟨0xD53D, 0xD557, 16⟩, ⟨0xD558, 0xD558, 15⟩, ⟨0xD559, 0xD573, 16⟩,
  ⟨0xD574, 0xD574, 15⟩, ⟨0xD575, 0xD58F, 16⟩, ⟨0xD590, 0xD590, 15⟩, ⟨0xD591, 0xD5AB, 16⟩,
  ⟨0xD5AC, 0xD5AC, 15⟩, ⟨0xD5AD, 0xD5C7, 16⟩, ⟨0xD5C8, 0xD5C8, 15⟩, ⟨0xD5C9, 0xD5E3, 16⟩,
  ⟨0xD5E4, 0xD5E4, 15⟩, ⟨0xD5E5, 0xD5FF, 16⟩, ⟨0xD600, 0xD600, 15⟩, ⟨0xD601, 0xD61B, 16⟩,
  ⟨0xD61C, 0xD61C, 15⟩, ⟨0xD61D, 0xD637, 16⟩, ⟨0xD638, 0xD638, 15⟩, ⟨0xD639, 0xD653, 16⟩,
  ⟨0xD654, 0xD654, 15⟩, ⟨0xD655, 0xD66F, 16⟩, ⟨0xD670, 0xD670, 15⟩, ⟨0xD671, 0xD68B, 16⟩,
  ⟨0xD68C, 0xD68C, 15⟩, ⟨0xD68D, 0xD6A7, 16⟩, ⟨0xD6A8, 0xD6A8, 15⟩, ⟨0xD6A9, 0xD6C3, 16⟩,
  ⟨0xD6C4, 0xD6C4, 15⟩, ⟨0xD6C5, 0xD6DF, 16⟩, ⟨0xD6E0, 0xD6E0, 15⟩, ⟨0xD6E1, 0xD6FB, 16⟩,
  ⟨0xD6FC, 0xD6FC, 15⟩, ⟨0xD6FD, 0xD717, 16⟩, ⟨0xD718, 0xD718, 15⟩, ⟨0xD719, 0xD733, 16⟩,
  ⟨0xD734, 0xD734, 15⟩, ⟨0xD735, 0xD74F, 16⟩, ⟨0xD750, 0xD750, 15⟩, ⟨0xD751, 0xD76B, 16⟩,
  ⟨0xD76C, 0xD76C, 15⟩, ⟨0xD76D, 0xD787, 16⟩, ⟨0xD788, 0xD788, 15⟩, ⟨0xD789, 0xD7A3, 16⟩,
  ⟨0xD7B0, 0xD7C6, 24⟩, ⟨0xD7CB, 0xD7FB, 23⟩, ⟨0xD800, 0xDB7F, 1⟩, ⟨0xDB80, 0xDBFF, 1⟩,
  ⟨0xDC00, 0xDFFF, 1⟩, ⟨0xE000, 0xF8FF, 1⟩, ⟨0xF900, 0xFA6D, 18⟩, ⟨0xFA6E, 0xFA6F, 18⟩,
  ⟨0xFA70, 0xFAD9, 18⟩, ⟨0xFADA, 0xFAFF, 18⟩, ⟨0xFB00, 0xFB06, 1⟩, ⟨0xFB13, 0xFB17, 1⟩,
  ⟨0xFB1D, 0xFB1D, 19⟩, ⟨0xFB1E, 0xFB1E, 8⟩, ⟨0xFB1F, 0xFB28, 19⟩, ⟨0xFB29, 0xFB29, 1⟩,
  ⟨0xFB2A, 0xFB36, 19⟩, ⟨0xFB38, 0xFB3C, 19⟩, ⟨0xFB3E, 0xFB3E, 19⟩, ⟨0xFB40, 0xFB41, 19⟩,
  ⟨0xFB43, 0xFB44, 19⟩, ⟨0xFB46, 0xFB4F, 19⟩, ⟨0xFB50, 0xFBB1, 1⟩, ⟨0xFBB2, 0xFBC2, 1⟩,
  ⟨0xFBD3, 0xFD3D, 1⟩, ⟨0xFD3E, 0xFD3E, 7⟩, ⟨0xFD3F, 0xFD3F, 29⟩, ⟨0xFD40, 0xFD4F, 1⟩,
  ⟨0xFD50, 0xFD8F, 1⟩, ⟨0xFD92, 0xFDC7, 1⟩, ⟨0xFDCF, 0xFDCF, 1⟩, ⟨0xFDF0, 0xFDFB, 1⟩,
  ⟨0xFDFC, 0xFDFC, 30⟩, ⟨0xFDFD, 0xFDFF, 1⟩, ⟨0xFE00, 0xFE0F, 8⟩, ⟨0xFE10, 0xFE10, 21⟩,
  ⟨0xFE11, 0xFE12, 7⟩, ⟨0xFE13, 0xFE14, 21⟩, ⟨0xFE15, 0xFE16, 13⟩, ⟨0xFE17, 0xFE17, 29⟩,
  ⟨0xFE18, 0xFE18, 7⟩, ⟨0xFE19, 0xFE19, 20⟩]

/-- Part 10 of `lineTable`, line_break.hpp:700-1868. -/
def lineTable10 : List Range := [
  ⟨0xFE20, 0xFE2F, 8⟩, ⟨0xFE30, 0xFE30, 18⟩, ⟨0xFE31, 0xFE32, 18⟩, ⟨0xFE33, 0xFE34, 18⟩,
  ⟨0xFE35, 0xFE35, 29⟩, ⟨0xFE36, 0xFE36, 7⟩, ⟨0xFE37, 0xFE37, 29⟩, ⟨0xFE38, 0xFE38, 7⟩,
  ⟨0xFE39, 0xFE39, 29⟩, ⟨0xFE3A, 0xFE3A, 7⟩, ⟨0xFE3B, 0xFE3B, 29⟩, ⟨0xFE3C, 0xFE3C, 7⟩,
  ⟨0xFE3D, 0xFE3D, 29⟩, ⟨0xFE3E, 0xFE3E, 7⟩, ⟨0xFE3F, 0xFE3F, 29⟩, ⟨0xFE40, 0xFE40, 7⟩,
  ⟨0xFE41, 0xFE41, 29⟩, ⟨0xFE42, 0xFE42, 7⟩, ⟨0xFE43, 0xFE43, 29⟩, ⟨0xFE44, 0xFE44, 7⟩,
  ⟨0xFE45, 0xFE46, 18⟩, ⟨0xFE47, 0xFE47, 29⟩, ⟨0xFE48, 0xFE48, 7⟩, ⟨0xFE49, 0xFE4C, 18⟩,
  ⟨0xFE4D, 0xFE4F, 18⟩, ⟨0xFE50, 0xFE50, 7⟩, ⟨0xFE51, 0xFE51, 18⟩, ⟨0xFE52, 0xFE52, 7⟩,
  ⟨0xFE54, 0xFE55, 27⟩, ⟨0xFE56, 0xFE57, 13⟩, ⟨0xFE58, 0xFE58, 18⟩, ⟨0xFE59, 0xFE59, 29⟩,
  ⟨0xFE5A, 0xFE5A, 7⟩, ⟨0xFE5B, 0xFE5B, 29⟩, ⟨0xFE5C, 0xFE5C, 7⟩, ⟨0xFE5D, 0xFE5D, 29⟩,
  ⟨0xFE5E, 0xFE5E, 7⟩, ⟨0xFE5F, 0xFE61, 18⟩, ⟨0xFE62, 0xFE62, 18⟩, ⟨0xFE63, 0xFE63, 18⟩,
  ⟨0xFE64, 0xFE66, 18⟩, ⟨0xFE68, 0xFE68, 18⟩, ⟨0xFE69, 0xFE69, 31⟩, ⟨0xFE6A, 0xFE6A, 30⟩,
  ⟨0xFE6B, 0xFE6B, 18⟩, ⟨0xFE70, 0xFE74, 1⟩, ⟨0xFE76, 0xFEFC, 1⟩, ⟨0xFEFF, 0xFEFF, 36⟩,
  ⟨0xFF01, 0xFF01, 13⟩, ⟨0xFF02, 0xFF03, 18⟩, ⟨0xFF04, 0xFF04, 31⟩, ⟨0xFF05, 0xFF05, 30⟩,
  ⟨0xFF06, 0xFF07, 18⟩, ⟨0xFF08, 0xFF08, 29⟩, ⟨0xFF09, 0xFF09, 7⟩, ⟨0xFF0A, 0xFF0A, 18⟩,
  ⟨0xFF0B, 0xFF0B, 18⟩, ⟨0xFF0C, 0xFF0C, 7⟩, ⟨0xFF0D, 0xFF0D, 18⟩, ⟨0xFF0E, 0xFF0E, 7⟩,
  ⟨0xFF0F, 0xFF0F, 18⟩, ⟨0xFF10, 0xFF19, 18⟩, ⟨0xFF1A, 0xFF1B, 27⟩, ⟨0xFF1C, 0xFF1E, 18⟩,
  ⟨0xFF1F, 0xFF1F, 13⟩, ⟨0xFF20, 0xFF20, 18⟩, ⟨0xFF21, 0xFF3A, 18⟩, ⟨0xFF3B, 0xFF3B, 29⟩,
  ⟨0xFF3C, 0xFF3C, 18⟩, ⟨0xFF3D, 0xFF3D, 7⟩, ⟨0xFF3E, 0xFF3E, 18⟩, ⟨0xFF3F, 0xFF3F, 18⟩,
  ⟨0xFF40, 0xFF40, 18⟩, ⟨0xFF41, 0xFF5A, 18⟩, ⟨0xFF5B, 0xFF5B, 29⟩, ⟨0xFF5C, 0xFF5C, 18⟩,
  ⟨0xFF5D, 0xFF5D, 7⟩, ⟨0xFF5E, 0xFF5E, 18⟩, ⟨0xFF5F, 0xFF5F, 29⟩, ⟨0xFF60, 0xFF60, 7⟩,
  ⟨0xFF61, 0xFF61, 7⟩, ⟨0xFF62, 0xFF62, 29⟩, ⟨0xFF63, 0xFF63, 7⟩, ⟨0xFF64, 0xFF64, 7⟩,
  ⟨0xFF65, 0xFF65, 27⟩, ⟨0xFF66, 0xFF66, 18⟩, ⟨0xFF67, 0xFF6F, 27⟩, ⟨0xFF70, 0xFF70, 27⟩,
  ⟨0xFF71, 0xFF9D, 18⟩, ⟨0xFF9E, 0xFF9F, 27⟩, ⟨0xFFA0, 0xFFBE, 18⟩, ⟨0xFFC2, 0xFFC7, 18⟩,
  ⟨0xFFCA, 0xFFCF, 18⟩, ⟨0xFFD2, 0xFFD7, 18⟩, ⟨0xFFDA, 0xFFDC, 18⟩, ⟨0xFFE0, 0xFFE0, 30⟩,
  ⟨0xFFE1, 0xFFE1, 31⟩, ⟨0xFFE2, 0xFFE2, 18⟩, ⟨0xFFE3, 0xFFE3, 18⟩, ⟨0xFFE4, 0xFFE4, 18⟩,
  ⟨0xFFE5, 0xFFE6, 31⟩, ⟨0xFFE8, 0xFFE8, 1⟩, ⟨0xFFE9, 0xFFEC, 1⟩, ⟨0xFFED, 0xFFEE, 1⟩,
  ⟨0xFFF9, 0xFFFB, 8⟩, ⟨0xFFFC, 0xFFFC, 6⟩, ⟨0xFFFD, 0xFFFD, 1⟩, ⟨0x10000, 0x1000B, 1⟩,
  ⟨0x1000D, 0x10026, 1⟩, ⟨0x10028, 0x1003A, 1⟩, ⟨0x1003C, 0x1003D, 1⟩, ⟨0x1003F, 0x1004D, 1⟩,
  ⟨0x10050, 0x1005D, 1⟩, ⟨0x10080, 0x100FA, 1⟩, ⟨0x10100, 0x10102, 2⟩, ⟨0x10107, 0x10133, 1⟩,
  ⟨0x10137, 0x1013F, 1⟩, ⟨0x10140, 0x10174, 1⟩, ⟨0x10175, 0x10178, 1⟩, ⟨0x10179, 0x10189, 1⟩,
  ⟨0x1018A, 0x1018B, 1⟩, ⟨0x1018C, 0x1018E, 1⟩, ⟨0x10190, 0x1019C, 1⟩, ⟨0x101A0, 0x101A0, 1⟩,
  ⟨0x101D0, 0x101FC, 1⟩, ⟨0x101FD, 0x101FD, 8⟩, ⟨0x10280, 0x1029C, 1⟩, ⟨0x102A0, 0x102D0, 1⟩,
  ⟨0x102E0, 0x102E0, 8⟩, ⟨0x102E1, 0x102FB, 1⟩, ⟨0x10300, 0x1031F, 1⟩, ⟨0x10320, 0x10323, 1⟩,
  ⟨0x1032D, 0x1032F, 1⟩, ⟨0x10330, 0x10340, 1⟩, ⟨0x10341, 0x10341, 1⟩, ⟨0x10342, 0x10349, 1⟩,
  ⟨0x1034A, 0x1034A, 1⟩, ⟨0x10350, 0x10375, 1⟩, ⟨0x10376, 0x1037A, 8⟩, ⟨0x10380, 0x1039D, 1⟩,
  ⟨0x1039F, 0x1039F, 2⟩, ⟨0x103A0, 0x103C3, 1⟩, ⟨0x103C8, 0x103CF, 1⟩, ⟨0x103D0, 0x103D0, 2⟩,
  ⟨0x103D1, 0x103D5, 1⟩, ⟨0x10400, 0x1044F, 1⟩, ⟨0x10450, 0x1047F, 1⟩, ⟨0x10480, 0x1049D, 1⟩,
  ⟨0x104A0, 0x104A9, 28⟩, ⟨0x104B0, 0x104D3, 1⟩, ⟨0x104D8, 0x104FB, 1⟩, ⟨0x10500, 0x10527, 1⟩,
  ⟨0x10530, 0x10563, 1⟩, ⟨0x1056F, 0x1056F, 1⟩, ⟨0x10570, 0x1057A, 1⟩, ⟨0x1057C, 0x1058A, 1⟩,
  ⟨0x1058C, 0x10592, 1⟩, ⟨0x10594, 0x10595, 1⟩, ⟨0x10597, 0x105A1, 1⟩, ⟨0x105A3, 0x105B1, 1⟩,
  ⟨0x105B3, 0x105B9, 1⟩, ⟨0x105BB, 0x105BC, 1⟩, ⟨0x10600, 0x10736, 1⟩, ⟨0x10740, 0x10755, 1⟩,
  ⟨0x10760, 0x10767, 1⟩, ⟨0x10780, 0x10785, 1⟩, ⟨0x10787, 0x107B0, 1⟩, ⟨0x107B2, 0x107BA, 1⟩,
  ⟨0x10800, 0x10805, 1⟩, ⟨0x10808, 0x10808, 1⟩, ⟨0x1080A, 0x10835, 1⟩, ⟨0x10837, 0x10838, 1⟩,
  ⟨0x1083C, 0x1083C, 1⟩, ⟨0x1083F, 0x1083F, 1⟩, ⟨0x10840, 0x10855, 1⟩, ⟨0x10857, 0x10857, 2⟩,
  ⟨0x10858, 0x1085F, 1⟩, ⟨0x10860, 0x10876, 1⟩, ⟨0x10877, 0x10878, 1⟩, ⟨0x10879, 0x1087F, 1⟩,
  ⟨0x10880, 0x1089E, 1⟩, ⟨0x108A7, 0x108AF, 1⟩, ⟨0x108E0, 0x108F2, 1⟩, ⟨0x108F4, 0x108F5, 1⟩,
  ⟨0x108FB, 0x108FF, 1⟩, ⟨0x10900, 0x10915, 1⟩, ⟨0x10916, 0x1091B, 1⟩, ⟨0x1091F, 0x1091F, 2⟩,
  ⟨0x10920, 0x10939, 1⟩, ⟨0x1093F, 0x1093F, 1⟩, ⟨0x10980, 0x1099F, 1⟩, ⟨0x109A0, 0x109B7, 1⟩,
  ⟨0x109BC, 0x109BD, 1⟩, ⟨0x109BE, 0x109BF, 1⟩, ⟨0x109C0, 0x109CF, 1⟩, ⟨0x109D2, 0x109FF, 1⟩,
  ⟨0x10A00, 0x10A00, 1⟩, ⟨0x10A01, 0x10A03, 8⟩, ⟨0x10A05, 0x10A06, 8⟩, ⟨0x10A0C, 0x10A0F, 8⟩,
  ⟨0x10A10, 0x10A13, 1⟩, ⟨0x10A15, 0x10A17, 1⟩, ⟨0x10A19, 0x10A35, 1⟩, ⟨0x10A38, 0x10A3A, 8⟩,
  ⟨0x10A3F, 0x10A3F, 8⟩, ⟨0x10A40, 0x10A48, 1⟩, ⟨0x10A50, 0x10A57, 2⟩, ⟨0x10A58, 0x10A58, 1⟩,
  ⟨0x10A60, 0x10A7C, 1⟩, ⟨0x10A7D, 0x10A7E, 1⟩, ⟨0x10A7F, 0x10A7F, 1⟩, ⟨0x10A80, 0x10A9C, 1⟩,
  ⟨0x10A9D, 0x10A9F, 1⟩, ⟨0x10AC0, 0x10AC7, 1⟩, ⟨0x10AC8, 0x10AC8, 1⟩, ⟨0x10AC9, 0x10AE4, 1⟩,
  ⟨0x10AE5, 0x10AE6, 8⟩, ⟨0x10AEB, 0x10AEF, 1⟩, ⟨0x10AF0, 0x10AF5, 2⟩, ⟨0x10AF6, 0x10AF6, 20⟩,
  ⟨0x10B00, 0x10B35, 1⟩, ⟨0x10B39, 0x10B3F, 2⟩, ⟨0x10B40, 0x10B55, 1⟩, ⟨0x10B58, 0x10B5F, 1⟩,
  ⟨0x10B60, 0x10B72, 1⟩, ⟨0x10B78, 0x10B7F, 1⟩, ⟨0x10B80, 0x10B91, 1⟩, ⟨0x10B99, 0x10B9C, 1⟩,
  ⟨0x10BA9, 0x10BAF, 1⟩, ⟨0x10C00, 0x10C48, 1⟩, ⟨0x10C80, 0x10CB2, 1⟩, ⟨0x10CC0, 0x10CF2, 1⟩,
  ⟨0x10CFA, 0x10CFF, 1⟩, ⟨0x10D00, 0x10D23, 1⟩, ⟨0x10D24, 0x10D27, 8⟩, ⟨0x10D30, 0x10D39, 28⟩,
  ⟨0x10E60, 0x10E7E, 1⟩, ⟨0x10E80, 0x10EA9, 1⟩, ⟨0x10EAB, 0x10EAC, 8⟩, ⟨0x10EAD, 0x10EAD, 2⟩,
  ⟨0x10EB0, 0x10EB1, 1⟩, ⟨0x10F00, 0x10F1C, 1⟩, ⟨0x10F1D, 0x10F26, 1⟩, ⟨0x10F27, 0x10F27, 1⟩,
  ⟨0x10F30, 0x10F45, 1⟩, ⟨0x10F46, 0x10F50, 8⟩, ⟨0x10F51, 0x10F54, 1⟩, ⟨0x10F55, 0x10F59, 1⟩,
  ⟨0x10F70, 0x10F81, 1⟩, ⟨0x10F82, 0x10F85, 8⟩]

/-- Part 11 of `lineTable`, line_break.hpp:700-1868. -/
def lineTable11 : List Range := [
  ⟨0x10F86, 0x10F89, 1⟩, ⟨0x10FB0, 0x10FC4, 1⟩, ⟨0x10FC5, 0x10FCB, 1⟩, ⟨0x10FE0, 0x10FF6, 1⟩,
  ⟨0x11000, 0x11000, 8⟩, ⟨0x11001, 0x11001, 8⟩, ⟨0x11002, 0x11002, 8⟩, ⟨0x11003, 0x11037, 1⟩,
  ⟨0x11038, 0x11046, 8⟩, ⟨0x11047, 0x11048, 2⟩, ⟨0x11049, 0x1104D, 1⟩, ⟨0x11052, 0x11065, 1⟩,
  ⟨0x11066, 0x1106F, 28⟩, ⟨0x11070, 0x11070, 8⟩, ⟨0x11071, 0x11072, 1⟩, ⟨0x11073, 0x11074, 8⟩,
  ⟨0x11075, 0x11075, 1⟩, ⟨0x1107F, 0x1107F, 8⟩, ⟨0x11080, 0x11081, 8⟩, ⟨0x11082, 0x11082, 8⟩,
  ⟨0x11083, 0x110AF, 1⟩, ⟨0x110B0, 0x110B2, 8⟩, ⟨0x110B3, 0x110B6, 8⟩, ⟨0x110B7, 0x110B8, 8⟩,
  ⟨0x110B9, 0x110BA, 8⟩, ⟨0x110BB, 0x110BC, 1⟩, ⟨0x110BD, 0x110BD, 1⟩, ⟨0x110BE, 0x110C1, 2⟩,
  ⟨0x110C2, 0x110C2, 8⟩, ⟨0x110CD, 0x110CD, 1⟩, ⟨0x110D0, 0x110E8, 1⟩, ⟨0x110F0, 0x110F9, 28⟩,
  ⟨0x11100, 0x11102, 8⟩, ⟨0x11103, 0x11126, 1⟩, ⟨0x11127, 0x1112B, 8⟩, ⟨0x1112C, 0x1112C, 8⟩,
  ⟨0x1112D, 0x11134, 8⟩, ⟨0x11136, 0x1113F, 28⟩, ⟨0x11140, 0x11143, 2⟩, ⟨0x11144, 0x11144, 1⟩,
  ⟨0x11145, 0x11146, 8⟩, ⟨0x11147, 0x11147, 1⟩, ⟨0x11150, 0x11172, 1⟩, ⟨0x11173, 0x11173, 8⟩,
  ⟨0x11174, 0x11174, 1⟩, ⟨0x11175, 0x11175, 3⟩, ⟨0x11176, 0x11176, 1⟩, ⟨0x11180, 0x11181, 8⟩,
  ⟨0x11182, 0x11182, 8⟩, ⟨0x11183, 0x111B2, 1⟩, ⟨0x111B3, 0x111B5, 8⟩, ⟨0x111B6, 0x111BE, 8⟩,
  ⟨0x111BF, 0x111C0, 8⟩, ⟨0x111C1, 0x111C4, 1⟩, ⟨0x111C5, 0x111C6, 2⟩, ⟨0x111C7, 0x111C7, 1⟩,
  ⟨0x111C8, 0x111C8, 2⟩, ⟨0x111C9, 0x111CC, 8⟩, ⟨0x111CD, 0x111CD, 1⟩, ⟨0x111CE, 0x111CE, 8⟩,
  ⟨0x111CF, 0x111CF, 8⟩, ⟨0x111D0, 0x111D9, 28⟩, ⟨0x111DA, 0x111DA, 1⟩, ⟨0x111DB, 0x111DB, 3⟩,
  ⟨0x111DC, 0x111DC, 1⟩, ⟨0x111DD, 0x111DF, 2⟩, ⟨0x111E1, 0x111F4, 1⟩, ⟨0x11200, 0x11211, 1⟩,
  ⟨0x11213, 0x1122B, 1⟩, ⟨0x1122C, 0x1122E, 8⟩, ⟨0x1122F, 0x11231, 8⟩, ⟨0x11232, 0x11233, 8⟩,
  ⟨0x11234, 0x11234, 8⟩, ⟨0x11235, 0x11235, 8⟩, ⟨0x11236, 0x11237, 8⟩, ⟨0x11238, 0x11239, 2⟩,
  ⟨0x1123A, 0x1123A, 1⟩, ⟨0x1123B, 0x1123C, 2⟩, ⟨0x1123D, 0x1123D, 1⟩, ⟨0x1123E, 0x1123E, 8⟩,
  ⟨0x11280, 0x11286, 1⟩, ⟨0x11288, 0x11288, 1⟩, ⟨0x1128A, 0x1128D, 1⟩, ⟨0x1128F, 0x1129D, 1⟩,
  ⟨0x1129F, 0x112A8, 1⟩, ⟨0x112A9, 0x112A9, 2⟩, ⟨0x112B0, 0x112DE, 1⟩, ⟨0x112DF, 0x112DF, 8⟩,
  ⟨0x112E0, 0x112E2, 8⟩, ⟨0x112E3, 0x112EA, 8⟩, ⟨0x112F0, 0x112F9, 28⟩, ⟨0x11300, 0x11301, 8⟩,
  ⟨0x11302, 0x11303, 8⟩, ⟨0x11305, 0x1130C, 1⟩, ⟨0x1130F, 0x11310, 1⟩, ⟨0x11313, 0x11328, 1⟩,
  ⟨0x1132A, 0x11330, 1⟩, ⟨0x11332, 0x11333, 1⟩, ⟨0x11335, 0x11339, 1⟩, ⟨0x1133B, 0x1133C, 8⟩,
  ⟨0x1133D, 0x1133D, 1⟩, ⟨0x1133E, 0x1133F, 8⟩, ⟨0x11340, 0x11340, 8⟩, ⟨0x11341, 0x11344, 8⟩,
  ⟨0x11347, 0x11348, 8⟩, ⟨0x1134B, 0x1134D, 8⟩, ⟨0x11350, 0x11350, 1⟩, ⟨0x11357, 0x11357, 8⟩,
  ⟨0x1135D, 0x11361, 1⟩, ⟨0x11362, 0x11363, 8⟩, ⟨0x11366, 0x1136C, 8⟩, ⟨0x11370, 0x11374, 8⟩,
  ⟨0x11400, 0x11434, 1⟩, ⟨0x11435, 0x11437, 8⟩, ⟨0x11438, 0x1143F, 8⟩, ⟨0x11440, 0x11441, 8⟩,
  ⟨0x11442, 0x11444, 8⟩, ⟨0x11445, 0x11445, 8⟩, ⟨0x11446, 0x11446, 8⟩, ⟨0x11447, 0x1144A, 1⟩,
  ⟨0x1144B, 0x1144E, 2⟩, ⟨0x1144F, 0x1144F, 1⟩, ⟨0x11450, 0x11459, 28⟩, ⟨0x1145A, 0x1145B, 2⟩,
  ⟨0x1145D, 0x1145D, 1⟩, ⟨0x1145E, 0x1145E, 8⟩, ⟨0x1145F, 0x11461, 1⟩, ⟨0x11480, 0x114AF, 1⟩,
  ⟨0x114B0, 0x114B2, 8⟩, ⟨0x114B3, 0x114B8, 8⟩, ⟨0x114B9, 0x114B9, 8⟩, ⟨0x114BA, 0x114BA, 8⟩,
  ⟨0x114BB, 0x114BE, 8⟩, ⟨0x114BF, 0x114C0, 8⟩, ⟨0x114C1, 0x114C1, 8⟩, ⟨0x114C2, 0x114C3, 8⟩,
  ⟨0x114C4, 0x114C5, 1⟩, ⟨0x114C6, 0x114C6, 1⟩, ⟨0x114C7, 0x114C7, 1⟩, ⟨0x114D0, 0x114D9, 28⟩,
  ⟨0x11580, 0x115AE, 1⟩, ⟨0x115AF, 0x115B1, 8⟩, ⟨0x115B2, 0x115B5, 8⟩, ⟨0x115B8, 0x115BB, 8⟩,
  ⟨0x115BC, 0x115BD, 8⟩, ⟨0x115BE, 0x115BE, 8⟩, ⟨0x115BF, 0x115C0, 8⟩, ⟨0x115C1, 0x115C1, 3⟩,
  ⟨0x115C2, 0x115C3, 2⟩, ⟨0x115C4, 0x115C5, 13⟩, ⟨0x115C6, 0x115C8, 1⟩, ⟨0x115C9, 0x115D7, 2⟩,
  ⟨0x115D8, 0x115DB, 1⟩, ⟨0x115DC, 0x115DD, 8⟩, ⟨0x11600, 0x1162F, 1⟩, ⟨0x11630, 0x11632, 8⟩,
  ⟨0x11633, 0x1163A, 8⟩, ⟨0x1163B, 0x1163C, 8⟩, ⟨0x1163D, 0x1163D, 8⟩, ⟨0x1163E, 0x1163E, 8⟩,
  ⟨0x1163F, 0x11640, 8⟩, ⟨0x11641, 0x11642, 2⟩, ⟨0x11643, 0x11643, 1⟩, ⟨0x11644, 0x11644, 1⟩,
  ⟨0x11650, 0x11659, 28⟩, ⟨0x11660, 0x1166C, 3⟩, ⟨0x11680, 0x116AA, 1⟩, ⟨0x116AB, 0x116AB, 8⟩,
  ⟨0x116AC, 0x116AC, 8⟩, ⟨0x116AD, 0x116AD, 8⟩, ⟨0x116AE, 0x116AF, 8⟩, ⟨0x116B0, 0x116B5, 8⟩,
  ⟨0x116B6, 0x116B6, 8⟩, ⟨0x116B7, 0x116B7, 8⟩, ⟨0x116B8, 0x116B8, 1⟩, ⟨0x116B9, 0x116B9, 1⟩,
  ⟨0x116C0, 0x116C9, 28⟩, ⟨0x11700, 0x1171A, 1⟩, ⟨0x1171D, 0x1171F, 8⟩, ⟨0x11720, 0x11721, 8⟩,
  ⟨0x11722, 0x11725, 8⟩, ⟨0x11726, 0x11726, 8⟩, ⟨0x11727, 0x1172B, 8⟩, ⟨0x11730, 0x11739, 28⟩,
  ⟨0x1173A, 0x1173B, 1⟩, ⟨0x1173C, 0x1173E, 2⟩, ⟨0x1173F, 0x1173F, 1⟩, ⟨0x11740, 0x11746, 1⟩,
  ⟨0x11800, 0x1182B, 1⟩, ⟨0x1182C, 0x1182E, 8⟩, ⟨0x1182F, 0x11837, 8⟩, ⟨0x11838, 0x11838, 8⟩,
  ⟨0x11839, 0x1183A, 8⟩, ⟨0x1183B, 0x1183B, 1⟩, ⟨0x118A0, 0x118DF, 1⟩, ⟨0x118E0, 0x118E9, 28⟩,
  ⟨0x118EA, 0x118F2, 1⟩, ⟨0x118FF, 0x118FF, 1⟩, ⟨0x11900, 0x11906, 1⟩, ⟨0x11909, 0x11909, 1⟩,
  ⟨0x1190C, 0x11913, 1⟩, ⟨0x11915, 0x11916, 1⟩, ⟨0x11918, 0x1192F, 1⟩, ⟨0x11930, 0x11935, 8⟩,
  ⟨0x11937, 0x11938, 8⟩, ⟨0x1193B, 0x1193C, 8⟩, ⟨0x1193D, 0x1193D, 8⟩, ⟨0x1193E, 0x1193E, 8⟩,
  ⟨0x1193F, 0x1193F, 1⟩, ⟨0x11940, 0x11940, 8⟩, ⟨0x11941, 0x11941, 1⟩, ⟨0x11942, 0x11942, 8⟩,
  ⟨0x11943, 0x11943, 8⟩, ⟨0x11944, 0x11946, 2⟩, ⟨0x11950, 0x11959, 28⟩, ⟨0x119A0, 0x119A7, 1⟩,
  ⟨0x119AA, 0x119D0, 1⟩, ⟨0x119D1, 0x119D3, 8⟩, ⟨0x119D4, 0x119D7, 8⟩, ⟨0x119DA, 0x119DB, 8⟩,
  ⟨0x119DC, 0x119DF, 8⟩, ⟨0x119E0, 0x119E0, 8⟩, ⟨0x119E1, 0x119E1, 1⟩, ⟨0x119E2, 0x119E2, 3⟩,
  ⟨0x119E3, 0x119E3, 1⟩, ⟨0x119E4, 0x119E4, 8⟩, ⟨0x11A00, 0x11A00, 1⟩, ⟨0x11A01, 0x11A0A, 8⟩,
  ⟨0x11A0B, 0x11A32, 1⟩, ⟨0x11A33, 0x11A38, 8⟩, ⟨0x11A39, 0x11A39, 8⟩, ⟨0x11A3A, 0x11A3A, 1⟩,
  ⟨0x11A3B, 0x11A3E, 8⟩, ⟨0x11A3F, 0x11A3F, 3⟩, ⟨0x11A40, 0x11A40, 1⟩, ⟨0x11A41, 0x11A44, 2⟩,
  ⟨0x11A45, 0x11A45, 3⟩, ⟨0x11A46, 0x11A46, 1⟩, ⟨0x11A47, 0x11A47, 8⟩, ⟨0x11A50, 0x11A50, 1⟩,
  ⟨0x11A51, 0x11A56, 8⟩, ⟨0x11A57, 0x11A58, 8⟩, ⟨0x11A59, 0x11A5B, 8⟩, ⟨0x11A5C, 0x11A89, 1⟩,
  ⟨0x11A8A, 0x11A96, 8⟩, ⟨0x11A97, 0x11A97, 8⟩, ⟨0x11A98, 0x11A99, 8⟩, ⟨0x11A9A, 0x11A9C, 2⟩,
  ⟨0x11A9D, 0x11A9D, 1⟩, ⟨0x11A9E, 0x11AA0, 3⟩]

/-- Part 12 of `lineTable`, line_break.hpp:700-1868. -/
def lineTable12 : List Range := [
  ⟨0x11AA1, 0x11AA2, 2⟩, ⟨0x11AB0, 0x11ABF, 1⟩, ⟨0x11AC0, 0x11AF8, 1⟩, ⟨0x11C00, 0x11C08, 1⟩,
  ⟨0x11C0A, 0x11C2E, 1⟩, ⟨0x11C2F, 0x11C2F, 8⟩, ⟨0x11C30, 0x11C36, 8⟩, ⟨0x11C38, 0x11C3D, 8⟩,
  ⟨0x11C3E, 0x11C3E, 8⟩, ⟨0x11C3F, 0x11C3F, 8⟩, ⟨0x11C40, 0x11C40, 1⟩, ⟨0x11C41, 0x11C45, 2⟩,
  ⟨0x11C50, 0x11C59, 28⟩, ⟨0x11C5A, 0x11C6C, 1⟩, ⟨0x11C70, 0x11C70, 3⟩, ⟨0x11C71, 0x11C71, 13⟩,
  ⟨0x11C72, 0x11C8F, 1⟩, ⟨0x11C92, 0x11CA7, 8⟩, ⟨0x11CA9, 0x11CA9, 8⟩, ⟨0x11CAA, 0x11CB0, 8⟩,
  ⟨0x11CB1, 0x11CB1, 8⟩, ⟨0x11CB2, 0x11CB3, 8⟩, ⟨0x11CB4, 0x11CB4, 8⟩, ⟨0x11CB5, 0x11CB6, 8⟩,
  ⟨0x11D00, 0x11D06, 1⟩, ⟨0x11D08, 0x11D09, 1⟩, ⟨0x11D0B, 0x11D30, 1⟩, ⟨0x11D31, 0x11D36, 8⟩,
  ⟨0x11D3A, 0x11D3A, 8⟩, ⟨0x11D3C, 0x11D3D, 8⟩, ⟨0x11D3F, 0x11D45, 8⟩, ⟨0x11D46, 0x11D46, 1⟩,
  ⟨0x11D47, 0x11D47, 8⟩, ⟨0x11D50, 0x11D59, 28⟩, ⟨0x11D60, 0x11D65, 1⟩, ⟨0x11D67, 0x11D68, 1⟩,
  ⟨0x11D6A, 0x11D89, 1⟩, ⟨0x11D8A, 0x11D8E, 8⟩, ⟨0x11D90, 0x11D91, 8⟩, ⟨0x11D93, 0x11D94, 8⟩,
  ⟨0x11D95, 0x11D95, 8⟩, ⟨0x11D96, 0x11D96, 8⟩, ⟨0x11D97, 0x11D97, 8⟩, ⟨0x11D98, 0x11D98, 1⟩,
  ⟨0x11DA0, 0x11DA9, 28⟩, ⟨0x11EE0, 0x11EF2, 1⟩, ⟨0x11EF3, 0x11EF4, 8⟩, ⟨0x11EF5, 0x11EF6, 8⟩,
  ⟨0x11EF7, 0x11EF8, 1⟩, ⟨0x11FB0, 0x11FB0, 1⟩, ⟨0x11FC0, 0x11FD4, 1⟩, ⟨0x11FD5, 0x11FDC, 1⟩,
  ⟨0x11FDD, 0x11FE0, 30⟩, ⟨0x11FE1, 0x11FF1, 1⟩, ⟨0x11FFF, 0x11FFF, 2⟩, ⟨0x12000, 0x12399, 1⟩,
  ⟨0x12400, 0x1246E, 1⟩, ⟨0x12470, 0x12474, 2⟩, ⟨0x12480, 0x12543, 1⟩, ⟨0x12F90, 0x12FF0, 1⟩,
  ⟨0x12FF1, 0x12FF2, 1⟩, ⟨0x13000, 0x13257, 1⟩, ⟨0x13258, 0x1325A, 29⟩, ⟨0x1325B, 0x1325D, 7⟩,
  ⟨0x1325E, 0x13281, 1⟩, ⟨0x13282, 0x13282, 7⟩, ⟨0x13283, 0x13285, 1⟩, ⟨0x13286, 0x13286, 29⟩,
  ⟨0x13287, 0x13287, 7⟩, ⟨0x13288, 0x13288, 29⟩, ⟨0x13289, 0x13289, 7⟩, ⟨0x1328A, 0x13378, 1⟩,
  ⟨0x13379, 0x13379, 29⟩, ⟨0x1337A, 0x1337B, 7⟩, ⟨0x1337C, 0x1342E, 1⟩, ⟨0x13430, 0x13436, 14⟩,
  ⟨0x13437, 0x13437, 29⟩, ⟨0x13438, 0x13438, 7⟩, ⟨0x14400, 0x145CD, 1⟩, ⟨0x145CE, 0x145CE, 29⟩,
  ⟨0x145CF, 0x145CF, 7⟩, ⟨0x145D0, 0x14646, 1⟩, ⟨0x16800, 0x16A38, 1⟩, ⟨0x16A40, 0x16A5E, 1⟩,
  ⟨0x16A60, 0x16A69, 28⟩, ⟨0x16A6E, 0x16A6F, 2⟩, ⟨0x16A70, 0x16ABE, 1⟩, ⟨0x16AC0, 0x16AC9, 28⟩,
  ⟨0x16AD0, 0x16AED, 1⟩, ⟨0x16AF0, 0x16AF4, 8⟩, ⟨0x16AF5, 0x16AF5, 2⟩, ⟨0x16B00, 0x16B2F, 1⟩,
  ⟨0x16B30, 0x16B36, 8⟩, ⟨0x16B37, 0x16B39, 2⟩, ⟨0x16B3A, 0x16B3B, 1⟩, ⟨0x16B3C, 0x16B3F, 1⟩,
  ⟨0x16B40, 0x16B43, 1⟩, ⟨0x16B44, 0x16B44, 2⟩, ⟨0x16B45, 0x16B45, 1⟩, ⟨0x16B50, 0x16B59, 28⟩,
  ⟨0x16B5B, 0x16B61, 1⟩, ⟨0x16B63, 0x16B77, 1⟩, ⟨0x16B7D, 0x16B8F, 1⟩, ⟨0x16E40, 0x16E7F, 1⟩,
  ⟨0x16E80, 0x16E96, 1⟩, ⟨0x16E97, 0x16E98, 2⟩, ⟨0x16E99, 0x16E9A, 1⟩, ⟨0x16F00, 0x16F4A, 1⟩,
  ⟨0x16F4F, 0x16F4F, 8⟩, ⟨0x16F50, 0x16F50, 1⟩, ⟨0x16F51, 0x16F87, 8⟩, ⟨0x16F8F, 0x16F92, 8⟩,
  ⟨0x16F93, 0x16F9F, 1⟩, ⟨0x16FE0, 0x16FE1, 27⟩, ⟨0x16FE2, 0x16FE2, 27⟩, ⟨0x16FE3, 0x16FE3, 27⟩,
  ⟨0x16FE4, 0x16FE4, 14⟩, ⟨0x16FF0, 0x16FF1, 8⟩, ⟨0x17000, 0x187F7, 18⟩, ⟨0x18800, 0x18AFF, 18⟩,
  ⟨0x18B00, 0x18CD5, 1⟩, ⟨0x18D00, 0x18D08, 18⟩, ⟨0x1AFF0, 0x1AFF3, 1⟩, ⟨0x1AFF5, 0x1AFFB, 1⟩,
  ⟨0x1AFFD, 0x1AFFE, 1⟩, ⟨0x1B000, 0x1B0FF, 18⟩, ⟨0x1B100, 0x1B122, 18⟩, ⟨0x1B150, 0x1B152, 27⟩,
  ⟨0x1B164, 0x1B167, 27⟩, ⟨0x1B170, 0x1B2FB, 18⟩, ⟨0x1BC00, 0x1BC6A, 1⟩, ⟨0x1BC70, 0x1BC7C, 1⟩,
  ⟨0x1BC80, 0x1BC88, 1⟩, ⟨0x1BC90, 0x1BC99, 1⟩, ⟨0x1BC9C, 0x1BC9C, 1⟩, ⟨0x1BC9D, 0x1BC9E, 8⟩,
  ⟨0x1BC9F, 0x1BC9F, 2⟩, ⟨0x1BCA0, 0x1BCA3, 8⟩, ⟨0x1CF00, 0x1CF2D, 8⟩, ⟨0x1CF30, 0x1CF46, 8⟩,
  ⟨0x1CF50, 0x1CFC3, 1⟩, ⟨0x1D000, 0x1D0F5, 1⟩, ⟨0x1D100, 0x1D126, 1⟩, ⟨0x1D129, 0x1D164, 1⟩,
  ⟨0x1D165, 0x1D166, 8⟩, ⟨0x1D167, 0x1D169, 8⟩, ⟨0x1D16A, 0x1D16C, 1⟩, ⟨0x1D16D, 0x1D172, 8⟩,
  ⟨0x1D173, 0x1D17A, 8⟩, ⟨0x1D17B, 0x1D182, 8⟩, ⟨0x1D183, 0x1D184, 1⟩, ⟨0x1D185, 0x1D18B, 8⟩,
  ⟨0x1D18C, 0x1D1A9, 1⟩, ⟨0x1D1AA, 0x1D1AD, 8⟩, ⟨0x1D1AE, 0x1D1EA, 1⟩, ⟨0x1D200, 0x1D241, 1⟩,
  ⟨0x1D242, 0x1D244, 8⟩, ⟨0x1D245, 0x1D245, 1⟩, ⟨0x1D2E0, 0x1D2F3, 1⟩, ⟨0x1D300, 0x1D356, 1⟩,
  ⟨0x1D360, 0x1D378, 1⟩, ⟨0x1D400, 0x1D454, 1⟩, ⟨0x1D456, 0x1D49C, 1⟩, ⟨0x1D49E, 0x1D49F, 1⟩,
  ⟨0x1D4A2, 0x1D4A2, 1⟩, ⟨0x1D4A5, 0x1D4A6, 1⟩, ⟨0x1D4A9, 0x1D4AC, 1⟩, ⟨0x1D4AE, 0x1D4B9, 1⟩,
  ⟨0x1D4BB, 0x1D4BB, 1⟩, ⟨0x1D4BD, 0x1D4C3, 1⟩, ⟨0x1D4C5, 0x1D505, 1⟩, ⟨0x1D507, 0x1D50A, 1⟩,
  ⟨0x1D50D, 0x1D514, 1⟩, ⟨0x1D516, 0x1D51C, 1⟩, ⟨0x1D51E, 0x1D539, 1⟩, ⟨0x1D53B, 0x1D53E, 1⟩,
  ⟨0x1D540, 0x1D544, 1⟩, ⟨0x1D546, 0x1D546, 1⟩, ⟨0x1D54A, 0x1D550, 1⟩, ⟨0x1D552, 0x1D6A5, 1⟩,
  ⟨0x1D6A8, 0x1D6C0, 1⟩, ⟨0x1D6C1, 0x1D6C1, 1⟩, ⟨0x1D6C2, 0x1D6DA, 1⟩, ⟨0x1D6DB, 0x1D6DB, 1⟩,
  ⟨0x1D6DC, 0x1D6FA, 1⟩, ⟨0x1D6FB, 0x1D6FB, 1⟩, ⟨0x1D6FC, 0x1D714, 1⟩, ⟨0x1D715, 0x1D715, 1⟩,
  ⟨0x1D716, 0x1D734, 1⟩, ⟨0x1D735, 0x1D735, 1⟩, ⟨0x1D736, 0x1D74E, 1⟩, ⟨0x1D74F, 0x1D74F, 1⟩,
  ⟨0x1D750, 0x1D76E, 1⟩, ⟨0x1D76F, 0x1D76F, 1⟩, ⟨0x1D770, 0x1D788, 1⟩, ⟨0x1D789, 0x1D789, 1⟩,
  ⟨0x1D78A, 0x1D7A8, 1⟩, ⟨0x1D7A9, 0x1D7A9, 1⟩, ⟨0x1D7AA, 0x1D7C2, 1⟩, ⟨0x1D7C3, 0x1D7C3, 1⟩,
  ⟨0x1D7C4, 0x1D7CB, 1⟩, ⟨0x1D7CE, 0x1D7FF, 28⟩, ⟨0x1D800, 0x1D9FF, 1⟩, ⟨0x1DA00, 0x1DA36, 8⟩,
  ⟨0x1DA37, 0x1DA3A, 1⟩, ⟨0x1DA3B, 0x1DA6C, 8⟩, ⟨0x1DA6D, 0x1DA74, 1⟩, ⟨0x1DA75, 0x1DA75, 8⟩,
  ⟨0x1DA76, 0x1DA83, 1⟩, ⟨0x1DA84, 0x1DA84, 8⟩, ⟨0x1DA85, 0x1DA86, 1⟩, ⟨0x1DA87, 0x1DA8A, 2⟩,
  ⟨0x1DA8B, 0x1DA8B, 1⟩, ⟨0x1DA9B, 0x1DA9F, 8⟩, ⟨0x1DAA1, 0x1DAAF, 8⟩, ⟨0x1DF00, 0x1DF09, 1⟩,
  ⟨0x1DF0A, 0x1DF0A, 1⟩, ⟨0x1DF0B, 0x1DF1E, 1⟩, ⟨0x1E000, 0x1E006, 8⟩, ⟨0x1E008, 0x1E018, 8⟩,
  ⟨0x1E01B, 0x1E021, 8⟩, ⟨0x1E023, 0x1E024, 8⟩, ⟨0x1E026, 0x1E02A, 8⟩, ⟨0x1E100, 0x1E12C, 1⟩,
  ⟨0x1E130, 0x1E136, 8⟩, ⟨0x1E137, 0x1E13D, 1⟩, ⟨0x1E140, 0x1E149, 28⟩, ⟨0x1E14E, 0x1E14E, 1⟩,
  ⟨0x1E14F, 0x1E14F, 1⟩, ⟨0x1E290, 0x1E2AD, 1⟩, ⟨0x1E2AE, 0x1E2AE, 8⟩, ⟨0x1E2C0, 0x1E2EB, 1⟩,
  ⟨0x1E2EC, 0x1E2EF, 8⟩, ⟨0x1E2F0, 0x1E2F9, 28⟩, ⟨0x1E2FF, 0x1E2FF, 31⟩, ⟨0x1E7E0, 0x1E7E6, 1⟩,
  ⟨0x1E7E8, 0x1E7EB, 1⟩, ⟨0x1E7ED, 0x1E7EE, 1⟩, ⟨0x1E7F0, 0x1E7FE, 1⟩, ⟨0x1E800, 0x1E8C4, 1⟩,
  ⟨0x1E8C7, 0x1E8CF, 1⟩, ⟨0x1E8D0, 0x1E8D6, 8⟩, ⟨0x1E900, 0x1E943, 1⟩, ⟨0x1E944, 0x1E94A, 8⟩,
  ⟨0x1E94B, 0x1E94B, 1⟩, ⟨0x1E950, 0x1E959, 28⟩, ⟨0x1E95E, 0x1E95F, 29⟩, ⟨0x1EC71, 0x1ECAB, 1⟩,
  ⟨0x1ECAC, 0x1ECAC, 30⟩, ⟨0x1ECAD, 0x1ECAF, 1⟩]

/-- Part 13 of `lineTable`, line_break.hpp:700-1868. -/
def lineTable13 : List Range := [
  ⟨0x1ECB0, 0x1ECB0, 30⟩, ⟨0x1ECB1, 0x1ECB4, 1⟩, ⟨0x1ED01, 0x1ED2D, 1⟩, ⟨0x1ED2E, 0x1ED2E, 1⟩,
  ⟨0x1ED2F, 0x1ED3D, 1⟩, ⟨0x1EE00, 0x1EE03, 1⟩, ⟨0x1EE05, 0x1EE1F, 1⟩, ⟨0x1EE21, 0x1EE22, 1⟩,
  ⟨0x1EE24, 0x1EE24, 1⟩, ⟨0x1EE27, 0x1EE27, 1⟩, ⟨0x1EE29, 0x1EE32, 1⟩, ⟨0x1EE34, 0x1EE37, 1⟩,
  ⟨0x1EE39, 0x1EE39, 1⟩, ⟨0x1EE3B, 0x1EE3B, 1⟩, ⟨0x1EE42, 0x1EE42, 1⟩, ⟨0x1EE47, 0x1EE47, 1⟩,
  ⟨0x1EE49, 0x1EE49, 1⟩, ⟨0x1EE4B, 0x1EE4B, 1⟩, ⟨0x1EE4D, 0x1EE4F, 1⟩, ⟨0x1EE51, 0x1EE52, 1⟩,
  ⟨0x1EE54, 0x1EE54, 1⟩, ⟨0x1EE57, 0x1EE57, 1⟩, ⟨0x1EE59, 0x1EE59, 1⟩, ⟨0x1EE5B, 0x1EE5B, 1⟩,
  ⟨0x1EE5D, 0x1EE5D, 1⟩, ⟨0x1EE5F, 0x1EE5F, 1⟩, ⟨0x1EE61, 0x1EE62, 1⟩, ⟨0x1EE64, 0x1EE64, 1⟩,
  ⟨0x1EE67, 0x1EE6A, 1⟩, ⟨0x1EE6C, 0x1EE72, 1⟩, ⟨0x1EE74, 0x1EE77, 1⟩, ⟨0x1EE79, 0x1EE7C, 1⟩,
  ⟨0x1EE7E, 0x1EE7E, 1⟩, ⟨0x1EE80, 0x1EE89, 1⟩, ⟨0x1EE8B, 0x1EE9B, 1⟩, ⟨0x1EEA1, 0x1EEA3, 1⟩,
  ⟨0x1EEA5, 0x1EEA9, 1⟩, ⟨0x1EEAB, 0x1EEBB, 1⟩, ⟨0x1EEF0, 0x1EEF1, 1⟩, ⟨0x1F000, 0x1F02B, 18⟩,
  ⟨0x1F02C, 0x1F02F, 18⟩, ⟨0x1F030, 0x1F093, 18⟩, ⟨0x1F094, 0x1F09F, 18⟩, ⟨0x1F0A0, 0x1F0AE, 18⟩,
  ⟨0x1F0AF, 0x1F0B0, 18⟩, ⟨0x1F0B1, 0x1F0BF, 18⟩, ⟨0x1F0C0, 0x1F0C0, 18⟩, ⟨0x1F0C1, 0x1F0CF, 18⟩,
  ⟨0x1F0D0, 0x1F0D0, 18⟩, ⟨0x1F0D1, 0x1F0F5, 18⟩, ⟨0x1F0F6, 0x1F0FF, 18⟩, ⟨0x1F100, 0x1F10C, 1⟩,
  ⟨0x1F10D, 0x1F10F, 18⟩, ⟨0x1F110, 0x1F12D, 1⟩, ⟨0x1F12E, 0x1F12F, 1⟩, ⟨0x1F130, 0x1F169, 1⟩,
  ⟨0x1F16A, 0x1F16C, 1⟩, ⟨0x1F16D, 0x1F16F, 18⟩, ⟨0x1F170, 0x1F1AC, 1⟩, ⟨0x1F1AD, 0x1F1AD, 18⟩,
  ⟨0x1F1AE, 0x1F1E5, 18⟩, ⟨0x1F1E6, 0x1F1FF, 33⟩, ⟨0x1F200, 0x1F202, 18⟩, ⟨0x1F203, 0x1F20F, 18⟩,
  ⟨0x1F210, 0x1F23B, 18⟩, ⟨0x1F23C, 0x1F23F, 18⟩, ⟨0x1F240, 0x1F248, 18⟩, ⟨0x1F249, 0x1F24F, 18⟩,
  ⟨0x1F250, 0x1F251, 18⟩, ⟨0x1F252, 0x1F25F, 18⟩, ⟨0x1F260, 0x1F265, 18⟩, ⟨0x1F266, 0x1F2FF, 18⟩,
  ⟨0x1F300, 0x1F384, 18⟩, ⟨0x1F385, 0x1F385, 11⟩, ⟨0x1F386, 0x1F39B, 18⟩, ⟨0x1F39C, 0x1F39D, 1⟩,
  ⟨0x1F39E, 0x1F3B4, 18⟩, ⟨0x1F3B5, 0x1F3B6, 1⟩, ⟨0x1F3B7, 0x1F3BB, 18⟩, ⟨0x1F3BC, 0x1F3BC, 1⟩,
  ⟨0x1F3BD, 0x1F3C1, 18⟩, ⟨0x1F3C2, 0x1F3C4, 11⟩, ⟨0x1F3C5, 0x1F3C6, 18⟩, ⟨0x1F3C7, 0x1F3C7, 11⟩,
  ⟨0x1F3C8, 0x1F3C9, 18⟩, ⟨0x1F3CA, 0x1F3CC, 11⟩, ⟨0x1F3CD, 0x1F3FA, 18⟩, ⟨0x1F3FB, 0x1F3FF, 12⟩,
  ⟨0x1F400, 0x1F441, 18⟩, ⟨0x1F442, 0x1F443, 11⟩, ⟨0x1F444, 0x1F445, 18⟩, ⟨0x1F446, 0x1F450, 11⟩,
  ⟨0x1F451, 0x1F465, 18⟩, ⟨0x1F466, 0x1F478, 11⟩, ⟨0x1F479, 0x1F47B, 18⟩, ⟨0x1F47C, 0x1F47C, 11⟩,
  ⟨0x1F47D, 0x1F480, 18⟩, ⟨0x1F481, 0x1F483, 11⟩, ⟨0x1F484, 0x1F484, 18⟩, ⟨0x1F485, 0x1F487, 11⟩,
  ⟨0x1F488, 0x1F48E, 18⟩, ⟨0x1F48F, 0x1F48F, 11⟩, ⟨0x1F490, 0x1F490, 18⟩, ⟨0x1F491, 0x1F491, 11⟩,
  ⟨0x1F492, 0x1F49F, 18⟩, ⟨0x1F4A0, 0x1F4A0, 1⟩, ⟨0x1F4A1, 0x1F4A1, 18⟩, ⟨0x1F4A2, 0x1F4A2, 1⟩,
  ⟨0x1F4A3, 0x1F4A3, 18⟩, ⟨0x1F4A4, 0x1F4A4, 1⟩, ⟨0x1F4A5, 0x1F4A9, 18⟩, ⟨0x1F4AA, 0x1F4AA, 11⟩,
  ⟨0x1F4AB, 0x1F4AE, 18⟩, ⟨0x1F4AF, 0x1F4AF, 1⟩, ⟨0x1F4B0, 0x1F4B0, 18⟩, ⟨0x1F4B1, 0x1F4B2, 1⟩,
  ⟨0x1F4B3, 0x1F4FF, 18⟩, ⟨0x1F500, 0x1F506, 1⟩, ⟨0x1F507, 0x1F516, 18⟩, ⟨0x1F517, 0x1F524, 1⟩,
  ⟨0x1F525, 0x1F531, 18⟩, ⟨0x1F532, 0x1F549, 1⟩, ⟨0x1F54A, 0x1F573, 18⟩, ⟨0x1F574, 0x1F575, 11⟩,
  ⟨0x1F576, 0x1F579, 18⟩, ⟨0x1F57A, 0x1F57A, 11⟩, ⟨0x1F57B, 0x1F58F, 18⟩, ⟨0x1F590, 0x1F590, 11⟩,
  ⟨0x1F591, 0x1F594, 18⟩, ⟨0x1F595, 0x1F596, 11⟩, ⟨0x1F597, 0x1F5D3, 18⟩, ⟨0x1F5D4, 0x1F5DB, 1⟩,
  ⟨0x1F5DC, 0x1F5F3, 18⟩, ⟨0x1F5F4, 0x1F5F9, 1⟩, ⟨0x1F5FA, 0x1F5FF, 18⟩, ⟨0x1F600, 0x1F644, 18⟩,
  ⟨0x1F645, 0x1F647, 11⟩, ⟨0x1F648, 0x1F64A, 18⟩, ⟨0x1F64B, 0x1F64F, 11⟩, ⟨0x1F650, 0x1F675, 1⟩,
  ⟨0x1F676, 0x1F678, 32⟩, ⟨0x1F679, 0x1F67B, 27⟩, ⟨0x1F67C, 0x1F67F, 1⟩, ⟨0x1F680, 0x1F6A2, 18⟩,
  ⟨0x1F6A3, 0x1F6A3, 11⟩, ⟨0x1F6A4, 0x1F6B3, 18⟩, ⟨0x1F6B4, 0x1F6B6, 11⟩, ⟨0x1F6B7, 0x1F6BF, 18⟩,
  ⟨0x1F6C0, 0x1F6C0, 11⟩, ⟨0x1F6C1, 0x1F6CB, 18⟩, ⟨0x1F6CC, 0x1F6CC, 11⟩, ⟨0x1F6CD, 0x1F6D7, 18⟩,
  ⟨0x1F6D8, 0x1F6DC, 18⟩, ⟨0x1F6DD, 0x1F6EC, 18⟩, ⟨0x1F6ED, 0x1F6EF, 18⟩, ⟨0x1F6F0, 0x1F6FC, 18⟩,
  ⟨0x1F6FD, 0x1F6FF, 18⟩, ⟨0x1F700, 0x1F773, 1⟩, ⟨0x1F774, 0x1F77F, 18⟩, ⟨0x1F780, 0x1F7D4, 1⟩,
  ⟨0x1F7D5, 0x1F7D8, 18⟩, ⟨0x1F7D9, 0x1F7DF, 18⟩, ⟨0x1F7E0, 0x1F7EB, 18⟩, ⟨0x1F7EC, 0x1F7EF, 18⟩,
  ⟨0x1F7F0, 0x1F7F0, 18⟩, ⟨0x1F7F1, 0x1F7FF, 18⟩, ⟨0x1F800, 0x1F80B, 1⟩, ⟨0x1F80C, 0x1F80F, 18⟩,
  ⟨0x1F810, 0x1F847, 1⟩, ⟨0x1F848, 0x1F84F, 18⟩, ⟨0x1F850, 0x1F859, 1⟩, ⟨0x1F85A, 0x1F85F, 18⟩,
  ⟨0x1F860, 0x1F887, 1⟩, ⟨0x1F888, 0x1F88F, 18⟩, ⟨0x1F890, 0x1F8AD, 1⟩, ⟨0x1F8AE, 0x1F8AF, 18⟩,
  ⟨0x1F8B0, 0x1F8B1, 18⟩, ⟨0x1F8B2, 0x1F8FF, 18⟩, ⟨0x1F900, 0x1F90B, 1⟩, ⟨0x1F90C, 0x1F90C, 11⟩,
  ⟨0x1F90D, 0x1F90E, 18⟩, ⟨0x1F90F, 0x1F90F, 11⟩, ⟨0x1F910, 0x1F917, 18⟩, ⟨0x1F918, 0x1F91F, 11⟩,
  ⟨0x1F920, 0x1F925, 18⟩, ⟨0x1F926, 0x1F926, 11⟩, ⟨0x1F927, 0x1F92F, 18⟩, ⟨0x1F930, 0x1F939, 11⟩,
  ⟨0x1F93A, 0x1F93B, 18⟩, ⟨0x1F93C, 0x1F93E, 11⟩, ⟨0x1F93F, 0x1F976, 18⟩, ⟨0x1F977, 0x1F977, 11⟩,
  ⟨0x1F978, 0x1F9B4, 18⟩, ⟨0x1F9B5, 0x1F9B6, 11⟩, ⟨0x1F9B7, 0x1F9B7, 18⟩, ⟨0x1F9B8, 0x1F9B9, 11⟩,
  ⟨0x1F9BA, 0x1F9BA, 18⟩, ⟨0x1F9BB, 0x1F9BB, 11⟩, ⟨0x1F9BC, 0x1F9CC, 18⟩, ⟨0x1F9CD, 0x1F9CF, 11⟩,
  ⟨0x1F9D0, 0x1F9D0, 18⟩, ⟨0x1F9D1, 0x1F9DD, 11⟩, ⟨0x1F9DE, 0x1F9FF, 18⟩, ⟨0x1FA00, 0x1FA53, 1⟩,
  ⟨0x1FA54, 0x1FA5F, 18⟩, ⟨0x1FA60, 0x1FA6D, 18⟩, ⟨0x1FA6E, 0x1FA6F, 18⟩, ⟨0x1FA70, 0x1FA74, 18⟩,
  ⟨0x1FA75, 0x1FA77, 18⟩, ⟨0x1FA78, 0x1FA7C, 18⟩, ⟨0x1FA7D, 0x1FA7F, 18⟩, ⟨0x1FA80, 0x1FA86, 18⟩,
  ⟨0x1FA87, 0x1FA8F, 18⟩, ⟨0x1FA90, 0x1FAAC, 18⟩, ⟨0x1FAAD, 0x1FAAF, 18⟩, ⟨0x1FAB0, 0x1FABA, 18⟩,
  ⟨0x1FABB, 0x1FABF, 18⟩, ⟨0x1FAC0, 0x1FAC2, 18⟩, ⟨0x1FAC3, 0x1FAC5, 11⟩, ⟨0x1FAC6, 0x1FACF, 18⟩,
  ⟨0x1FAD0, 0x1FAD9, 18⟩, ⟨0x1FADA, 0x1FADF, 18⟩, ⟨0x1FAE0, 0x1FAE7, 18⟩, ⟨0x1FAE8, 0x1FAEF, 18⟩,
  ⟨0x1FAF0, 0x1FAF6, 11⟩, ⟨0x1FAF7, 0x1FAFF, 18⟩, ⟨0x1FB00, 0x1FB92, 1⟩, ⟨0x1FB94, 0x1FBCA, 1⟩,
  ⟨0x1FBF0, 0x1FBF9, 28⟩, ⟨0x1FC00, 0x1FFFD, 18⟩, ⟨0x20000, 0x2A6DF, 18⟩, ⟨0x2A6E0, 0x2A6FF, 18⟩,
  ⟨0x2A700, 0x2B738, 18⟩, ⟨0x2B739, 0x2B73F, 18⟩, ⟨0x2B740, 0x2B81D, 18⟩, ⟨0x2B81E, 0x2B81F, 18⟩,
  ⟨0x2B820, 0x2CEA1, 18⟩, ⟨0x2CEA2, 0x2CEAF, 18⟩, ⟨0x2CEB0, 0x2EBE0, 18⟩, ⟨0x2EBE1, 0x2F7FF, 18⟩,
  ⟨0x2F800, 0x2FA1D, 18⟩, ⟨0x2FA1E, 0x2FA1F, 18⟩, ⟨0x2FA20, 0x2FFFD, 18⟩, ⟨0x30000, 0x3134A, 18⟩,
  ⟨0x3134B, 0x3FFFD, 18⟩, ⟨0xE0001, 0xE0001, 8⟩, ⟨0xE0020, 0xE007F, 8⟩, ⟨0xE0100, 0xE01EF, 8⟩,
  ⟨0xF0000, 0xFFFFD, 1⟩, ⟨0x100000, 0x10FFFD, 1⟩]

/-- The table of line_break.hpp:700-1868, 3500 entries. -/
def lineTable : List Range :=
  lineTable0 ++ lineTable1 ++ lineTable2 ++ lineTable3 ++ lineTable4 ++ lineTable5 ++ lineTable6 ++ lineTable7 ++ lineTable8 ++ lineTable9 ++ lineTable10 ++ lineTable11 ++ lineTable12 ++ lineTable13

end ArgRouter.Utf8

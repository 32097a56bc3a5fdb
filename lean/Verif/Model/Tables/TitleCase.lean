/- src/Ystring/TitleCaseTables.hpp
   Generated by tools/gen_tables.py; do not edit. -/
namespace Ystring

/-- src/Ystring/TitleCaseTables.hpp:14-101: (segment, offset, affected, ignorable) (part 0) -/
def COMPACT_TITLE_CASE_0 : List (Nat × Nat × Nat × Nat) := [
  (0x60, 0xFFFFFFE0, 0x7FFFFFE, 0xF8000001), (0xE0, 0xFFFFFFE0, 0x7F7FFFFF, 0x800000), (0x100, 0xFFFFFFFF, 0xAAAAAAAA, 0x55555555), (0x120, 0xFFFFFFFF, 0x54A8AAAA, 0xAB555555),
  (0x140, 0xFFFFFFFF, 0xAAAAA955, 0x555556AA), (0x160, 0xFFFFFFFF, 0x54AAAAAA, 0x2B555555), (0x180, 0xFFFFFFFF, 0x2041128, 0xB1DBEED6), (0x1A0, 0xFFFFFFFF, 0x2251212A, 0x5DAEDED5),
  (0x1C0, 0xFFFFFFFF, 0x95555240, 0x4AAAA00F), (0x1E0, 0xFFFFFFFF, 0xAA28AAAA, 0x55D15555), (0x200, 0xFFFFFFFF, 0xAAAAAAAA, 0x55555555), (0x220, 0xFFFFFFFF, 0x100AAAA8, 0x6FF55557),
  (0x240, 0xFFFFFFFF, 0xAA84, 0xE520557A), (0x280, 0xFFFFFF26, 0x109, 0x9FFBE072), (0x360, 0xFFFFFFFF, 0x8A0000, 0xC775FFFF), (0x3A0, 0xFFFFFFE0, 0xFFFE0000, 0x10FFF),
  (0x3C0, 0xFFFFFFE0, 0xFFB, 0x551C8000), (0x3E0, 0xFFFFFFFF, 0x900AAAA, 0xF6D05555), (0x420, 0xFFFFFFE0, 0xFFFF0000, 0xFFFF), (0x440, 0xFFFFFFE0, 0xFFFF, 0x0),
  (0x460, 0xFFFFFFFF, 0xAAAAAAAA, 0x55555555), (0x480, 0xFFFFFFFF, 0xAAAAA802, 0x555557FD), (0x4A0, 0xFFFFFFFF, 0xAAAAAAAA, 0x55555555), (0x4C0, 0xFFFFFFFF, 0xAAAA5554, 0x55552AAB),
  (0x4E0, 0xFFFFFFFF, 0xAAAAAAAA, 0x55555555), (0x500, 0xFFFFFFFF, 0xAAAAAAAA, 0x55555555), (0x520, 0xFFFFFFFF, 0xAAAA, 0xFFFF5555), (0x560, 0xFFFFFFD0, 0xFFFFFFFE, 0x1),
  (0x580, 0xFFFFFFD0, 0x7F, 0xFFFFFF80), (0x10C0, 0x0, 0xFFFF0000, 0xFFFF), (0x10E0, 0x0, 0xE7FFFFFF, 0x18000000), (0x13E0, 0xFFFFFFF8, 0x3F000000, 0xC0FFFFFF),
  (0x1E00, 0xFFFFFFFF, 0xAAAAAAAA, 0x55555555), (0x1E20, 0xFFFFFFFF, 0xAAAAAAAA, 0x55555555), (0x1E40, 0xFFFFFFFF, 0xAAAAAAAA, 0x55555555), (0x1E60, 0xFFFFFFFF, 0xAAAAAAAA, 0x55555555),
  (0x1E80, 0xFFFFFFFF, 0x2AAAAA, 0xF7D55555), (0x1EA0, 0xFFFFFFFF, 0xAAAAAAAA, 0x55555555), (0x1EC0, 0xFFFFFFFF, 0xAAAAAAAA, 0x55555555), (0x1EE0, 0xFFFFFFFF, 0xAAAAAAAA, 0x55555555),
  (0x1F00, 0x8, 0x3F00FF, 0xFFC0FF00), (0x1F20, 0x8, 0xFF00FF, 0xFF00FF00), (0x1F40, 0x8, 0xAA003F, 0xFF55FFC0), (0x1F60, 0x8, 0xFF, 0xC000FF00),
  (0x1F80, 0x8, 0xFF00FF, 0xFF00FF00), (0x1FA0, 0x8, 0x300FF, 0xBFF4FF00), (0x2160, 0xFFFFFFF0, 0xFFFF0000, 0xFFFF), (0x24C0, 0xFFFFFFE6, 0xFFFF0000, 0xFFFF),
  (0x24E0, 0xFFFFFFE6, 0x3FF, 0xFFFFFC00), (0x2C20, 0xFFFFFFD0, 0xFFFF0000, 0xFFFF), (0x2C40, 0xFFFFFFD0, 0xFFFFFFFF, 0x0), (0x2C60, 0xFFFFFFFF, 0x481502, 0xFFB7EA9D),
  (0x2C80, 0xFFFFFFFF, 0xAAAAAAAA, 0x55555555), (0x2CA0, 0xFFFFFFFF, 0xAAAAAAAA, 0x55555555), (0x2CC0, 0xFFFFFFFF, 0xAAAAAAAA, 0x55555555), (0x2CE0, 0xFFFFFFFF, 0x8500A, 0xFFF7AFF5),
  (0x2D00, 0xFFFFE3A0, 0xFFFFFFFF, 0x0), (0x2D20, 0xFFFFE3A0, 0x20BF, 0xFFFFDF40), (0xA640, 0xFFFFFFFF, 0xAAAAAAAA, 0x55555555), (0xA660, 0xFFFFFFFF, 0x2AAA, 0xFFFFD555),
  (0xA680, 0xFFFFFFFF, 0xAAAAAAA, 0xF5555555), (0xA720, 0xFFFFFFFF, 0xAAA8AAA8, 0x55575557), (0xA740, 0xFFFFFFFF, 0xAAAAAAAA, 0x55555555), (0xA760, 0xFFFFFFFF, 0x9400AAAA, 0x6BFF5555),
  (0xA780, 0xFFFFFFFF, 0xAA8A10AA, 0x5565EF55), (0xA7A0, 0xFFFFFFFF, 0xAAA002AA, 0x555FFD55), (0xA7C0, 0xFFFFFFFF, 0xA82250A, 0xF57DDAF5), (0xAB60, 0xFFFF6830, 0xFFFF0000, 0xFFFF),
  (0xAB80, 0xFFFF6830, 0xFFFFFFFF, 0x0), (0xABA0, 0xFFFF6830, 0xFFFFFFFF, 0x0), (0xFF40, 0xFFFFFFE0, 0x7FFFFFE, 0xF8000001), (0x10420, 0xFFFFFFD8, 0xFFFFFF00, 0xFF),
  (0x10440, 0xFFFFFFD8, 0xFFFF, 0xFFFF0000), (0x104C0, 0xFFFFFFD8, 0xFF000000, 0xFFFFFF), (0x104E0, 0xFFFFFFD8, 0xFFFFFFF, 0xF0000000), (0x10580, 0xFFFFFFD9, 0xFF800000, 0x7FFFFF),
  (0x105A0, 0xFFFFFFD9, 0x1BFBFFFB, 0xE4040004), (0x10CC0, 0xFFFFFFC0, 0xFFFFFFFF, 0x0), (0x10CE0, 0xFFFFFFC0, 0x7FFFF, 0xFFF80000), (0x10D60, 0xFFFFFFE0, 0xFFFF0000, 0xFFFF),
  (0x10D80, 0xFFFFFFE0, 0x3F, 0xFFFFFFC0), (0x118C0, 0xFFFFFFE0, 0xFFFFFFFF, 0x0), (0x16E60, 0xFFFFFFE0, 0xFFFFFFFF, 0x0), (0x1E920, 0xFFFFFFDE, 0xFFFFFFFC, 0x3),
  (0x1E940, 0xFFFFFFDE, 0xF, 0xFFFFFFF0)]

/-- src/Ystring/TitleCaseTables.hpp:14-101: (segment, offset, affected, ignorable) (85 entries) -/
def COMPACT_TITLE_CASE : List (Nat × Nat × Nat × Nat) :=
  COMPACT_TITLE_CASE_0

/-- src/Ystring/TitleCaseTables.hpp:103-248: (from_codepoint, to_codepoint) (part 0) -/
def TITLE_CASE_0 : List (Nat × Nat) := [
  (0xB5, 0x39C), (0xFF, 0x178), (0x131, 0x49), (0x17F, 0x53),
  (0x180, 0x243), (0x195, 0x1F6), (0x19A, 0x23D), (0x19B, 0xA7DC),
  (0x19E, 0x220), (0x1BF, 0x1F7), (0x1C4, 0x1C5), (0x1C5, 0x1C5),
  (0x1C7, 0x1C8), (0x1C8, 0x1C8), (0x1CA, 0x1CB), (0x1CB, 0x1CB),
  (0x1DD, 0x18E), (0x1F1, 0x1F2), (0x1F2, 0x1F2), (0x23F, 0x2C7E),
  (0x240, 0x2C7F), (0x250, 0x2C6F), (0x251, 0x2C6D), (0x252, 0x2C70),
  (0x253, 0x181), (0x254, 0x186), (0x256, 0x189), (0x257, 0x18A),
  (0x259, 0x18F), (0x25B, 0x190), (0x25C, 0xA7AB), (0x260, 0x193),
  (0x261, 0xA7AC), (0x263, 0x194), (0x264, 0xA7CB), (0x265, 0xA78D),
  (0x266, 0xA7AA), (0x268, 0x197), (0x269, 0x196), (0x26A, 0xA7AE),
  (0x26B, 0x2C62), (0x26C, 0xA7AD), (0x26F, 0x19C), (0x271, 0x2C6E),
  (0x272, 0x19D), (0x275, 0x19F), (0x27D, 0x2C64), (0x282, 0xA7C5),
  (0x287, 0xA7B1), (0x289, 0x244), (0x28A, 0x1B1), (0x28B, 0x1B2),
  (0x28C, 0x245), (0x292, 0x1B7), (0x29D, 0xA7B2), (0x29E, 0xA7B0),
  (0x345, 0x399), (0x37B, 0x3FD), (0x37C, 0x3FE), (0x37D, 0x3FF),
  (0x3AC, 0x386), (0x3AD, 0x388), (0x3AE, 0x389), (0x3AF, 0x38A),
  (0x3C2, 0x3A3), (0x3CC, 0x38C), (0x3CD, 0x38E), (0x3CE, 0x38F),
  (0x3D0, 0x392), (0x3D1, 0x398), (0x3D5, 0x3A6), (0x3D6, 0x3A0),
  (0x3D7, 0x3CF), (0x3D9, 0x3D8), (0x3DB, 0x3DA), (0x3DD, 0x3DC),
  (0x3DF, 0x3DE), (0x3F0, 0x39A), (0x3F1, 0x3A1), (0x3F2, 0x3F9),
  (0x3F3, 0x37F), (0x3F5, 0x395), (0x450, 0x400), (0x451, 0x401),
  (0x452, 0x402), (0x453, 0x403), (0x454, 0x404), (0x455, 0x405),
  (0x456, 0x406), (0x457, 0x407), (0x458, 0x408), (0x459, 0x409),
  (0x45A, 0x40A), (0x45B, 0x40B), (0x45C, 0x40C), (0x45D, 0x40D),
  (0x45E, 0x40E), (0x45F, 0x40F), (0x4CF, 0x4C0), (0x1C80, 0x412),
  (0x1C81, 0x414), (0x1C82, 0x41E), (0x1C83, 0x421), (0x1C84, 0x422),
  (0x1C85, 0x422), (0x1C86, 0x42A), (0x1C87, 0x462), (0x1C88, 0xA64A),
  (0x1C8A, 0x1C89), (0x1D79, 0xA77D), (0x1D7D, 0x2C63), (0x1D8E, 0xA7C6),
  (0x1E9B, 0x1E60), (0x1F70, 0x1FBA), (0x1F71, 0x1FBB), (0x1F72, 0x1FC8),
  (0x1F73, 0x1FC9), (0x1F74, 0x1FCA), (0x1F75, 0x1FCB), (0x1F76, 0x1FDA),
  (0x1F77, 0x1FDB), (0x1F78, 0x1FF8), (0x1F79, 0x1FF9), (0x1F7A, 0x1FEA),
  (0x1F7B, 0x1FEB), (0x1F7C, 0x1FFA), (0x1F7D, 0x1FFB), (0x1FB3, 0x1FBC),
  (0x1FBE, 0x399), (0x1FC3, 0x1FCC), (0x1FD0, 0x1FD8), (0x1FD1, 0x1FD9),
  (0x1FE0, 0x1FE8), (0x1FE1, 0x1FE9), (0x1FE5, 0x1FEC), (0x1FF3, 0x1FFC),
  (0x214E, 0x2132), (0x2184, 0x2183), (0x2C65, 0x23A), (0x2C66, 0x23E),
  (0xA794, 0xA7C4), (0xA7F6, 0xA7F5), (0xAB53, 0xA7B3)]

/-- src/Ystring/TitleCaseTables.hpp:103-248: (from_codepoint, to_codepoint) (143 entries) -/
def TITLE_CASE : List (Nat × Nat) :=
  TITLE_CASE_0

end Ystring

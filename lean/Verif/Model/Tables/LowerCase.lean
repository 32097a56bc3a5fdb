/- src/Ystring/LowerCaseTables.hpp
   Generated by tools/gen_tables.py; do not edit. -/
namespace Ystring

/-- src/Ystring/LowerCaseTables.hpp:14-99: (segment, offset, affected, ignorable) (part 0) -/
def COMPACT_LOWER_CASE_0 : List (Nat × Nat × Nat × Nat) := [
  (0x40, 0x20, 0x7FFFFFE, 0xF8000001), (0xC0, 0x20, 0x7F7FFFFF, 0x80800000), (0x100, 0x1, 0x55555555, 0xAAAAAAAA), (0x120, 0x1, 0xAA545555, 0x55AAAAAA),
  (0x140, 0x1, 0x555554AA, 0xAAAAAB55), (0x160, 0x1, 0x2A555555, 0xD4AAAAAA), (0x180, 0x1, 0x1020894, 0x4E243129), (0x1A0, 0x1, 0x11289095, 0xEE512D2A),
  (0x1C0, 0x1, 0x4AAAA920, 0xB555524F), (0x1E0, 0x1, 0x55145555, 0xAA29AAAA), (0x200, 0x1, 0x55555555, 0xAAAAAAAA), (0x220, 0x1, 0x8055554, 0x93FAAAAA),
  (0x240, 0x1, 0x5542, 0xFFFFAA85), (0x360, 0x1, 0x450000, 0x7FBAFFFF), (0x380, 0x20, 0xFFFE0000, 0x128BF), (0x3A0, 0x20, 0xFFB, 0xFFFFF004),
  (0x3C0, 0x1, 0x55000000, 0xAAFF7FFF), (0x3E0, 0x1, 0x4805555, 0x196FAAAA), (0x400, 0x50, 0xFFFF, 0x0), (0x420, 0x20, 0xFFFF, 0xFFFF0000),
  (0x460, 0x1, 0x55555555, 0xAAAAAAAA), (0x480, 0x1, 0x55555401, 0xAAAAABFE), (0x4A0, 0x1, 0x55555555, 0xAAAAAAAA), (0x4C0, 0x1, 0x55552AAA, 0xAAAAD554),
  (0x4E0, 0x1, 0x55555555, 0xAAAAAAAA), (0x500, 0x1, 0x55555555, 0xAAAAAAAA), (0x520, 0x30, 0xFFFE0000, 0x1AAAA), (0x540, 0x30, 0x7FFFFF, 0xFF800000),
  (0x10A0, 0x1C60, 0xFFFFFFFF, 0x0), (0x10C0, 0x1C60, 0x20BF, 0xFFFFDF40), (0x13A0, 0x97D0, 0xFFFFFFFF, 0x0), (0x13C0, 0x97D0, 0xFFFFFFFF, 0x0),
  (0x13E0, 0x97D0, 0xFFFF, 0xFFC00000), (0x1C80, 0xFFFFF440, 0xFFFF0000, 0xFDFF), (0x1CA0, 0xFFFFF440, 0xE7FFFFFF, 0x18000000), (0x1E00, 0x1, 0x55555555, 0xAAAAAAAA),
  (0x1E20, 0x1, 0x55555555, 0xAAAAAAAA), (0x1E40, 0x1, 0x55555555, 0xAAAAAAAA), (0x1E60, 0x1, 0x55555555, 0xAAAAAAAA), (0x1E80, 0x1, 0x155555, 0xBFEAAAAA),
  (0x1EA0, 0x1, 0x55555555, 0xAAAAAAAA), (0x1EC0, 0x1, 0x55555555, 0xAAAAAAAA), (0x1EE0, 0x1, 0x55555555, 0xAAAAAAAA), (0x1F00, 0xFFFFFFF8, 0x3F00FF00, 0xC0FF00FF),
  (0x1F20, 0xFFFFFFF8, 0xFF00FF00, 0xFF00FF), (0x1F40, 0xFFFFFFF8, 0xAA003F00, 0x55FFC0FF), (0x1F60, 0xFFFFFFF8, 0xFF00, 0xFFFF00FF), (0x1F80, 0xFFFFFFF8, 0xFF00FF00, 0xFF00FF),
  (0x1FA0, 0xFFFFFFF8, 0x300FF00, 0xE0FF00FF), (0x1FC0, 0xFFFFFFAA, 0xF00, 0xF0FFE0FF), (0x2160, 0x10, 0xFFFF, 0xFFFF0000), (0x24A0, 0x1A, 0xFFC00000, 0x3FFFFF),
  (0x24C0, 0x1A, 0xFFFF, 0xFFFF0000), (0x2C00, 0x30, 0xFFFFFFFF, 0x0), (0x2C20, 0x30, 0xFFFF, 0xFFFF0000), (0x2C60, 0x1, 0x240A81, 0x3FDA1562),
  (0x2C80, 0x1, 0x55555555, 0xAAAAAAAA), (0x2CA0, 0x1, 0x55555555, 0xAAAAAAAA), (0x2CC0, 0x1, 0x55555555, 0xAAAAAAAA), (0x2CE0, 0x1, 0x42805, 0xFFFBD7FA),
  (0xA640, 0x1, 0x55555555, 0xAAAAAAAA), (0xA660, 0x1, 0x1555, 0xFFFFEAAA), (0xA680, 0x1, 0x5555555, 0xFAAAAAAA), (0xA720, 0x1, 0x55545554, 0xAAABAAAB),
  (0xA740, 0x1, 0x55555555, 0xAAAAAAAA), (0xA760, 0x1, 0x4A005555, 0x95FFAAAA), (0xA780, 0x1, 0x55450855, 0xAABAD7AA), (0xA7A0, 0x1, 0x55500155, 0xAAA082AA),
  (0xA7C0, 0x1, 0x5411285, 0xEABEE50A), (0xFF20, 0x20, 0x7FFFFFE, 0xF8000001), (0x10400, 0x28, 0xFFFFFFFF, 0x0), (0x10420, 0x28, 0xFF, 0xFFFFFF00),
  (0x104A0, 0x28, 0xFFFF0000, 0xFFFF), (0x104C0, 0x28, 0xFFFFF, 0xFFF00000), (0x10560, 0x27, 0xF7FF0000, 0x800FFFF), (0x10580, 0x27, 0x37F7FF, 0xFFC80800),
  (0x10C80, 0x40, 0xFFFFFFFF, 0x0), (0x10CA0, 0x40, 0x7FFFF, 0xFFF80000), (0x10D40, 0x20, 0xFFFF0000, 0xFFFF), (0x10D60, 0x20, 0x3F, 0xFFFFFFC0),
  (0x118A0, 0x20, 0xFFFFFFFF, 0x0), (0x16E40, 0x20, 0xFFFFFFFF, 0x0), (0x1E900, 0x22, 0xFFFFFFFF, 0x0)]

/-- src/Ystring/LowerCaseTables.hpp:14-99: (segment, offset, affected, ignorable) (83 entries) -/
def COMPACT_LOWER_CASE : List (Nat × Nat × Nat × Nat) :=
  COMPACT_LOWER_CASE_0

/-- src/Ystring/LowerCaseTables.hpp:101-236: (from_codepoint, to_codepoint) (part 0) -/
def LOWER_CASE_0 : List (Nat × Nat) := [
  (0x130, 0x69), (0x178, 0xFF), (0x181, 0x253), (0x186, 0x254),
  (0x189, 0x256), (0x18A, 0x257), (0x18E, 0x1DD), (0x18F, 0x259),
  (0x190, 0x25B), (0x193, 0x260), (0x194, 0x263), (0x196, 0x269),
  (0x197, 0x268), (0x19C, 0x26F), (0x19D, 0x272), (0x19F, 0x275),
  (0x1A6, 0x280), (0x1A9, 0x283), (0x1AE, 0x288), (0x1B1, 0x28A),
  (0x1B2, 0x28B), (0x1B7, 0x292), (0x1C4, 0x1C6), (0x1C7, 0x1C9),
  (0x1CA, 0x1CC), (0x1F1, 0x1F3), (0x1F6, 0x195), (0x1F7, 0x1BF),
  (0x220, 0x19E), (0x23A, 0x2C65), (0x23D, 0x19A), (0x23E, 0x2C66),
  (0x243, 0x180), (0x244, 0x289), (0x245, 0x28C), (0x37F, 0x3F3),
  (0x386, 0x3AC), (0x388, 0x3AD), (0x389, 0x3AE), (0x38A, 0x3AF),
  (0x38C, 0x3CC), (0x38E, 0x3CD), (0x38F, 0x3CE), (0x3CF, 0x3D7),
  (0x3F4, 0x3B8), (0x3F9, 0x3F2), (0x3FD, 0x37B), (0x3FE, 0x37C),
  (0x3FF, 0x37D), (0x410, 0x430), (0x411, 0x431), (0x412, 0x432),
  (0x413, 0x433), (0x414, 0x434), (0x415, 0x435), (0x416, 0x436),
  (0x417, 0x437), (0x418, 0x438), (0x419, 0x439), (0x41A, 0x43A),
  (0x41B, 0x43B), (0x41C, 0x43C), (0x41D, 0x43D), (0x41E, 0x43E),
  (0x41F, 0x43F), (0x4C0, 0x4CF), (0x520, 0x521), (0x522, 0x523),
  (0x524, 0x525), (0x526, 0x527), (0x528, 0x529), (0x52A, 0x52B),
  (0x52C, 0x52D), (0x52E, 0x52F), (0x13F0, 0x13F8), (0x13F1, 0x13F9),
  (0x13F2, 0x13FA), (0x13F3, 0x13FB), (0x13F4, 0x13FC), (0x13F5, 0x13FD),
  (0x1C89, 0x1C8A), (0x1E9E, 0xDF), (0x1FBA, 0x1F70), (0x1FBB, 0x1F71),
  (0x1FBC, 0x1FB3), (0x1FCC, 0x1FC3), (0x1FD8, 0x1FD0), (0x1FD9, 0x1FD1),
  (0x1FDA, 0x1F76), (0x1FDB, 0x1F77), (0x1FE8, 0x1FE0), (0x1FE9, 0x1FE1),
  (0x1FEA, 0x1F7A), (0x1FEB, 0x1F7B), (0x1FEC, 0x1FE5), (0x1FF8, 0x1F78),
  (0x1FF9, 0x1F79), (0x1FFA, 0x1F7C), (0x1FFB, 0x1F7D), (0x1FFC, 0x1FF3),
  (0x2126, 0x3C9), (0x212A, 0x6B), (0x212B, 0xE5), (0x2132, 0x214E),
  (0x2183, 0x2184), (0x2C62, 0x26B), (0x2C63, 0x1D7D), (0x2C64, 0x27D),
  (0x2C6D, 0x251), (0x2C6E, 0x271), (0x2C6F, 0x250), (0x2C70, 0x252),
  (0x2C7E, 0x23F), (0x2C7F, 0x240), (0xA77D, 0x1D79), (0xA78D, 0x265),
  (0xA7AA, 0x266), (0xA7AB, 0x25C), (0xA7AC, 0x261), (0xA7AD, 0x26C),
  (0xA7AE, 0x26A), (0xA7B0, 0x29E), (0xA7B1, 0x287), (0xA7B2, 0x29D),
  (0xA7B3, 0xAB53), (0xA7C4, 0xA794), (0xA7C5, 0x282), (0xA7C6, 0x1D8E),
  (0xA7CB, 0x264), (0xA7DC, 0x19B), (0xA7F5, 0xA7F6), (0x1E920, 0x1E942),
  (0x1E921, 0x1E943)]

/-- src/Ystring/LowerCaseTables.hpp:101-236: (from_codepoint, to_codepoint) (133 entries) -/
def LOWER_CASE : List (Nat × Nat) :=
  LOWER_CASE_0

end Ystring

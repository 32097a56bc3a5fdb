import Verif.Model.Algorithms
/-
The public array ASCII_WHITESPACE of include/Ystring/Algorithms.hpp, which no function of the library uses itself: callers
pass it to the functions that take a set of characters.
-/
namespace Ystring

/-- include/Ystring/Algorithms.hpp:29 -/
def ASCII_WHITESPACE : List Char32 := [0x20, 0x09, 0x0A, 0x0D, 0x0C, 0x0B]

/-- `trim(str, array)` with a `char32_t` array as argument: the array is converted to `std::u32string_view` as for the
default argument (include/Ystring/Algorithms.hpp:544-547); `mem`: see `pointerView`. -/
def trimArray (array mem : List Char32) (str : Str) : Res Str := trim str (pointerView array mem)

/-- `trim_end(str, array)`: include/Ystring/Algorithms.hpp:554-556, see `trimArray`. -/
def trimEndArray (array mem : List Char32) (str : Str) : Res Str := trimEnd str (pointerView array mem)

/-- `trim_start(str, array)`: include/Ystring/Algorithms.hpp:577-579, see `trimArray`. -/
def trimStartArray (array mem : List Char32) (str : Str) : Res Str := trimStart str (pointerView array mem)

end Ystring

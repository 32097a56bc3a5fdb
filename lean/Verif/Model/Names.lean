import Verif.Model.Headers
/-
Model of the end of tools/unicode_character_tables/codegen.py: names for generated code.
-/
namespace Ystring.Gen

/-- tools/unicode_character_tables/codegen.py:352-359 -/
def translateToSpace (s chars : Txt) : Txt := s.map (fun c => if chars.contains c then ' ' else c)

/-- tools/unicode_character_tables/codegen.py:365 -/
def BAD_CPP_CHARS : Txt := t!"'!\"#$%&/()=?+*@.:,;<>^`-_[]{}"

/-- tools/unicode_character_tables/codegen.py:368-369 (`upper()` on ASCII) -/
def makeMacroName (s : Txt) : Txt := joinTxt (t!"_") (words (translateToSpace (upperText s) BAD_CPP_CHARS))

/-- tools/unicode_character_tables/codegen.py:372-373 -/
def variableName (s : Txt) : Txt := joinTxt (t!"_") (words (translateToSpace s BAD_CPP_CHARS))

end Ystring.Gen

{
 "Model/CaseInsensitive.lean|.ok (s.isNone && c.isSome)|.ok c.isSome": {
  "claim": "none: the edit does not change the program (the branch is reached only if s or c is none)",
  "note": "equivalent program",
  "tightened": []
 },
 "Model/Codegen.lean|| .list ls => ls ≠ []|| .list _ => true": {
  "tightened": [
   "C91_make_lines_partial",
   "C91_tidy_partial",
   "C97_nested (all theorems that use Spec.isTrue)"
  ],
  "note": "survived the first run because the specification used the model's truthy; the specification now has its own isTrue (Spec/Text.lean); failed theorems are those of the second run"
 },
 "Model/Codegen.lean|| .none => false|| .none => true": {
  "tightened": [
   "C91_make_lines_partial",
   "C91_tidy_partial",
   "C97_nested (all theorems that use Spec.isTrue)"
  ],
  "note": "survived the first run because the specification used the model's truthy; the specification now has its own isTrue (Spec/Text.lean); failed theorems are those of the second run"
 },
 "Model/Normalize.lean|if i < str.length then .ok (str.set i c) else .error .ub|if i ≤ str.length then .ok (str.set i c) else .error .ub": {
  "claim": "none: the edit does not change the program on any reachable state (the index is never the length of the buffer)",
  "note": "equivalent program",
  "tightened": []
 },
 "Model/Normalize.lean|List.replicate (n - str.length) 0|List.replicate (n - str.length) 1": {
  "claim": "none: the edit does not change the program (all of the new elements are overwritten)",
  "note": "equivalent program",
  "tightened": []
 },
 "Model/Headers.lean|List.replicate (2 - (intText n).length) '0'|List.replicate (2 - (intText n).length) ' '": {
  "claim": "none: the date is in a comment of the header, and no claim is about it",
  "note": "breaks no claim",
  "tightened": []
 },
 "Model/Headers.lean|twoDigits d.month ++ ['-'] ++ twoDigits d.day|twoDigits d.day ++ ['-'] ++ twoDigits d.month": {
  "claim": "none: the date is in a comment of the header, and no claim is about it",
  "note": "breaks no claim",
  "tightened": []
 },
 "Model/Headers.lean|'-' :: hexText (w - 1) (-n).toNat|hexText w (-n).toNat": {
  "claim": "none: the edit does not change the program (2^32 has been added to negative numbers before they are printed)",
  "note": "equivalent program",
  "tightened": []
 },
 "Model/Alloc.lean|Mem.set rest\n  pure r|pure r": {
  "tightened": [
   "C90_pop"
  ],
  "note": "survived: C90_pop spoke about failing calls only; it now also says what successful calls do to the view"
 },
 "Model/Unescape.lean|List.replicate (n - s.length) 0|[]": {
  "claim": "none: the edit does not change the program (resize is only called with a length that is not larger, C58)",
  "note": "equivalent program",
  "tightened": []
 },
 "Model/Signed.lean|let (ch, it) ← decodeNext sg it\n|let (ch, it) ← decodeNext false it\n": {
  "note": "equivalent program",
  "tightened": []
 },
 "Model/Messages.lean|lift (ascii \"Invalid octal escape sequence.\")|lift (ascii \"Invalid hex escape sequence.\")": {
  "note": "equivalent program",
  "tightened": []
 },
 "Model/Unescape.lean|| none => .error .ub\n  | some c => .ok c|| none => .ok 0\n  | some c => .ok c": {
  "claim": "none: the edit does not change the program (no view is read at its end, C58_exact)",
  "note": "equivalent program",
  "tightened": []
 },
 "Model/Headers.lean|| none => .error .index|| none => .ok []": {
  "claim": "none: C93 is about files of which every line has all fields",
  "note": "breaks no claim",
  "tightened": []
 }
}
import Verif.Model.Str

/-!
# Names in the committed platform tables

Generated by `tools/gen_platform_names.py` from `/repo/platforms/src`; do not edit.
-/

namespace Verif.PlatGen

/-- `platforms.rs:17-349`: the entries of `ALL`. -/
def committedAll : List Str := [
  ['A', 'A', 'R', 'C', 'H', '6', '4', '_', 'A', 'P', 'P', 'L', 'E', '_', 'D', 'A', 'R', 'W', 'I', 'N'],
  ['A', 'A', 'R', 'C', 'H', '6', '4', '_', 'A', 'P', 'P', 'L', 'E', '_', 'I', 'O', 'S'],
  ['A', 'A', 'R', 'C', 'H', '6', '4', '_', 'A', 'P', 'P', 'L', 'E', '_', 'I', 'O', 'S', '_', 'M', 'A', 'C', 'A', 'B', 'I'],
  ['A', 'A', 'R', 'C', 'H', '6', '4', '_', 'A', 'P', 'P', 'L', 'E', '_', 'I', 'O', 'S', '_', 'S', 'I', 'M'],
  ['A', 'A', 'R', 'C', 'H', '6', '4', '_', 'A', 'P', 'P', 'L', 'E', '_', 'T', 'V', 'O', 'S'],
  ['A', 'A', 'R', 'C', 'H', '6', '4', '_', 'A', 'P', 'P', 'L', 'E', '_', 'T', 'V', 'O', 'S', '_', 'S', 'I', 'M'],
  ['A', 'A', 'R', 'C', 'H', '6', '4', '_', 'A', 'P', 'P', 'L', 'E', '_', 'V', 'I', 'S', 'I', 'O', 'N', 'O', 'S'],
  ['A', 'A', 'R', 'C', 'H', '6', '4', '_', 'A', 'P', 'P', 'L', 'E', '_', 'V', 'I', 'S', 'I', 'O', 'N', 'O', 'S', '_', 'S', 'I', 'M'],
  ['A', 'A', 'R', 'C', 'H', '6', '4', '_', 'A', 'P', 'P', 'L', 'E', '_', 'W', 'A', 'T', 'C', 'H', 'O', 'S'],
  ['A', 'A', 'R', 'C', 'H', '6', '4', '_', 'A', 'P', 'P', 'L', 'E', '_', 'W', 'A', 'T', 'C', 'H', 'O', 'S', '_', 'S', 'I', 'M'],
  ['A', 'A', 'R', 'C', 'H', '6', '4', '_', 'K', 'M', 'C', '_', 'S', 'O', 'L', 'I', 'D', '_', 'A', 'S', 'P', '3'],
  ['A', 'A', 'R', 'C', 'H', '6', '4', '_', 'L', 'I', 'N', 'U', 'X', '_', 'A', 'N', 'D', 'R', 'O', 'I', 'D'],
  ['A', 'A', 'R', 'C', 'H', '6', '4', '_', 'N', 'I', 'N', 'T', 'E', 'N', 'D', 'O', '_', 'S', 'W', 'I', 'T', 'C', 'H', '_', 'F', 'R', 'E', 'E', 'S', 'T', 'A', 'N', 'D', 'I', 'N', 'G'],
  ['A', 'A', 'R', 'C', 'H', '6', '4', '_', 'O', 'E', '_', 'L', 'I', 'N', 'U', 'X', '_', 'G', 'N', 'U'],
  ['A', 'A', 'R', 'C', 'H', '6', '4', '_', 'P', 'C', '_', 'W', 'I', 'N', 'D', 'O', 'W', 'S', '_', 'G', 'N', 'U', 'L', 'L', 'V', 'M'],
  ['A', 'A', 'R', 'C', 'H', '6', '4', '_', 'P', 'C', '_', 'W', 'I', 'N', 'D', 'O', 'W', 'S', '_', 'M', 'S', 'V', 'C'],
  ['A', 'A', 'R', 'C', 'H', '6', '4', '_', 'U', 'N', 'K', 'N', 'O', 'W', 'N', '_', 'F', 'R', 'E', 'E', 'B', 'S', 'D'],
  ['A', 'A', 'R', 'C', 'H', '6', '4', '_', 'U', 'N', 'K', 'N', 'O', 'W', 'N', '_', 'F', 'U', 'C', 'H', 'S', 'I', 'A'],
  ['A', 'A', 'R', 'C', 'H', '6', '4', '_', 'U', 'N', 'K', 'N', 'O', 'W', 'N', '_', 'H', 'E', 'L', 'E', 'N', 'O', 'S'],
  ['A', 'A', 'R', 'C', 'H', '6', '4', '_', 'U', 'N', 'K', 'N', 'O', 'W', 'N', '_', 'H', 'E', 'R', 'M', 'I', 'T'],
  ['A', 'A', 'R', 'C', 'H', '6', '4', '_', 'U', 'N', 'K', 'N', 'O', 'W', 'N', '_', 'I', 'L', 'L', 'U', 'M', 'O', 'S'],
  ['A', 'A', 'R', 'C', 'H', '6', '4', '_', 'U', 'N', 'K', 'N', 'O', 'W', 'N', '_', 'L', '4', 'R', 'E', '_', 'U', 'C', 'L', 'I', 'B', 'C'],
  ['A', 'A', 'R', 'C', 'H', '6', '4', '_', 'U', 'N', 'K', 'N', 'O', 'W', 'N', '_', 'L', 'I', 'N', 'U', 'X', '_', 'G', 'N', 'U'],
  ['A', 'A', 'R', 'C', 'H', '6', '4', '_', 'U', 'N', 'K', 'N', 'O', 'W', 'N', '_', 'L', 'I', 'N', 'U', 'X', '_', 'G', 'N', 'U', '_', 'I', 'L', 'P', '3', '2'],
  ['A', 'A', 'R', 'C', 'H', '6', '4', '_', 'U', 'N', 'K', 'N', 'O', 'W', 'N', '_', 'L', 'I', 'N', 'U', 'X', '_', 'M', 'U', 'S', 'L'],
  ['A', 'A', 'R', 'C', 'H', '6', '4', '_', 'U', 'N', 'K', 'N', 'O', 'W', 'N', '_', 'L', 'I', 'N', 'U', 'X', '_', 'O', 'H', 'O', 'S'],
  ['A', 'A', 'R', 'C', 'H', '6', '4', '_', 'U', 'N', 'K', 'N', 'O', 'W', 'N', '_', 'L', 'I', 'N', 'U', 'X', '_', 'P', 'A', 'U', 'T', 'H', 'T', 'E', 'S', 'T'],
  ['A', 'A', 'R', 'C', 'H', '6', '4', '_', 'U', 'N', 'K', 'N', 'O', 'W', 'N', '_', 'M', 'A', 'N', 'A', 'G', 'A', 'R', 'M', '_', 'M', 'L', 'I', 'B', 'C'],
  ['A', 'A', 'R', 'C', 'H', '6', '4', '_', 'U', 'N', 'K', 'N', 'O', 'W', 'N', '_', 'N', 'E', 'T', 'B', 'S', 'D'],
  ['A', 'A', 'R', 'C', 'H', '6', '4', '_', 'U', 'N', 'K', 'N', 'O', 'W', 'N', '_', 'N', 'O', 'N', 'E'],
  ['A', 'A', 'R', 'C', 'H', '6', '4', '_', 'U', 'N', 'K', 'N', 'O', 'W', 'N', '_', 'N', 'O', 'N', 'E', '_', 'S', 'O', 'F', 'T', 'F', 'L', 'O', 'A', 'T'],
  ['A', 'A', 'R', 'C', 'H', '6', '4', '_', 'U', 'N', 'K', 'N', 'O', 'W', 'N', '_', 'N', 'T', 'O', '_', 'Q', 'N', 'X', '7', '0', '0'],
  ['A', 'A', 'R', 'C', 'H', '6', '4', '_', 'U', 'N', 'K', 'N', 'O', 'W', 'N', '_', 'N', 'T', 'O', '_', 'Q', 'N', 'X', '7', '1', '0'],
  ['A', 'A', 'R', 'C', 'H', '6', '4', '_', 'U', 'N', 'K', 'N', 'O', 'W', 'N', '_', 'N', 'T', 'O', '_', 'Q', 'N', 'X', '7', '1', '0', '_', 'I', 'O', 'S', 'O', 'C', 'K'],
  ['A', 'A', 'R', 'C', 'H', '6', '4', '_', 'U', 'N', 'K', 'N', 'O', 'W', 'N', '_', 'N', 'U', 'T', 'T', 'X'],
  ['A', 'A', 'R', 'C', 'H', '6', '4', '_', 'U', 'N', 'K', 'N', 'O', 'W', 'N', '_', 'O', 'P', 'E', 'N', 'B', 'S', 'D'],
  ['A', 'A', 'R', 'C', 'H', '6', '4', '_', 'U', 'N', 'K', 'N', 'O', 'W', 'N', '_', 'Q', 'N', 'X'],
  ['A', 'A', 'R', 'C', 'H', '6', '4', '_', 'U', 'N', 'K', 'N', 'O', 'W', 'N', '_', 'R', 'E', 'D', 'O', 'X'],
  ['A', 'A', 'R', 'C', 'H', '6', '4', '_', 'U', 'N', 'K', 'N', 'O', 'W', 'N', '_', 'T', 'E', 'E', 'O', 'S'],
  ['A', 'A', 'R', 'C', 'H', '6', '4', '_', 'U', 'N', 'K', 'N', 'O', 'W', 'N', '_', 'T', 'R', 'U', 'S', 'T', 'Y'],
  ['A', 'A', 'R', 'C', 'H', '6', '4', '_', 'U', 'N', 'K', 'N', 'O', 'W', 'N', '_', 'U', 'E', 'F', 'I'],
  ['A', 'A', 'R', 'C', 'H', '6', '4', '_', 'U', 'W', 'P', '_', 'W', 'I', 'N', 'D', 'O', 'W', 'S', '_', 'M', 'S', 'V', 'C'],
  ['A', 'A', 'R', 'C', 'H', '6', '4', '_', 'W', 'R', 'S', '_', 'V', 'X', 'W', 'O', 'R', 'K', 'S'],
  ['A', 'A', 'R', 'C', 'H', '6', '4', '_', 'B', 'E', '_', 'U', 'N', 'K', 'N', 'O', 'W', 'N', '_', 'H', 'E', 'R', 'M', 'I', 'T'],
  ['A', 'A', 'R', 'C', 'H', '6', '4', '_', 'B', 'E', '_', 'U', 'N', 'K', 'N', 'O', 'W', 'N', '_', 'L', 'I', 'N', 'U', 'X', '_', 'G', 'N', 'U'],
  ['A', 'A', 'R', 'C', 'H', '6', '4', '_', 'B', 'E', '_', 'U', 'N', 'K', 'N', 'O', 'W', 'N', '_', 'L', 'I', 'N', 'U', 'X', '_', 'G', 'N', 'U', '_', 'I', 'L', 'P', '3', '2'],
  ['A', 'A', 'R', 'C', 'H', '6', '4', '_', 'B', 'E', '_', 'U', 'N', 'K', 'N', 'O', 'W', 'N', '_', 'L', 'I', 'N', 'U', 'X', '_', 'M', 'U', 'S', 'L'],
  ['A', 'A', 'R', 'C', 'H', '6', '4', '_', 'B', 'E', '_', 'U', 'N', 'K', 'N', 'O', 'W', 'N', '_', 'N', 'E', 'T', 'B', 'S', 'D'],
  ['A', 'A', 'R', 'C', 'H', '6', '4', '_', 'B', 'E', '_', 'U', 'N', 'K', 'N', 'O', 'W', 'N', '_', 'N', 'O', 'N', 'E', '_', 'S', 'O', 'F', 'T', 'F', 'L', 'O', 'A', 'T'],
  ['A', 'A', 'R', 'C', 'H', '6', '4', 'V', '8', 'R', '_', 'U', 'N', 'K', 'N', 'O', 'W', 'N', '_', 'N', 'O', 'N', 'E'],
  ['A', 'A', 'R', 'C', 'H', '6', '4', 'V', '8', 'R', '_', 'U', 'N', 'K', 'N', 'O', 'W', 'N', '_', 'N', 'O', 'N', 'E', '_', 'S', 'O', 'F', 'T', 'F', 'L', 'O', 'A', 'T'],
  ['A', 'M', 'D', 'G', 'C', 'N', '_', 'A', 'M', 'D', '_', 'A', 'M', 'D', 'H', 'S', 'A'],
  ['A', 'R', 'M', '_', 'L', 'I', 'N', 'U', 'X', '_', 'A', 'N', 'D', 'R', 'O', 'I', 'D', 'E', 'A', 'B', 'I'],
  ['A', 'R', 'M', '_', 'U', 'N', 'K', 'N', 'O', 'W', 'N', '_', 'L', 'I', 'N', 'U', 'X', '_', 'G', 'N', 'U', 'E', 'A', 'B', 'I'],
  ['A', 'R', 'M', '_', 'U', 'N', 'K', 'N', 'O', 'W', 'N', '_', 'L', 'I', 'N', 'U', 'X', '_', 'G', 'N', 'U', 'E', 'A', 'B', 'I', 'H', 'F'],
  ['A', 'R', 'M', '_', 'U', 'N', 'K', 'N', 'O', 'W', 'N', '_', 'L', 'I', 'N', 'U', 'X', '_', 'M', 'U', 'S', 'L', 'E', 'A', 'B', 'I'],
  ['A', 'R', 'M', '_', 'U', 'N', 'K', 'N', 'O', 'W', 'N', '_', 'L', 'I', 'N', 'U', 'X', '_', 'M', 'U', 'S', 'L', 'E', 'A', 'B', 'I', 'H', 'F'],
  ['A', 'R', 'M', '6', '4', '_', '3', '2', '_', 'A', 'P', 'P', 'L', 'E', '_', 'W', 'A', 'T', 'C', 'H', 'O', 'S'],
  ['A', 'R', 'M', '6', '4', 'E', '_', 'A', 'P', 'P', 'L', 'E', '_', 'D', 'A', 'R', 'W', 'I', 'N'],
  ['A', 'R', 'M', '6', '4', 'E', '_', 'A', 'P', 'P', 'L', 'E', '_', 'I', 'O', 'S'],
  ['A', 'R', 'M', '6', '4', 'E', '_', 'A', 'P', 'P', 'L', 'E', '_', 'T', 'V', 'O', 'S'],
  ['A', 'R', 'M', '6', '4', 'E', 'C', '_', 'P', 'C', '_', 'W', 'I', 'N', 'D', 'O', 'W', 'S', '_', 'M', 'S', 'V', 'C'],
  ['A', 'R', 'M', 'E', 'B', '_', 'U', 'N', 'K', 'N', 'O', 'W', 'N', '_', 'L', 'I', 'N', 'U', 'X', '_', 'G', 'N', 'U', 'E', 'A', 'B', 'I'],
  ['A', 'R', 'M', 'E', 'B', 'V', '7', 'R', '_', 'N', 'O', 'N', 'E', '_', 'E', 'A', 'B', 'I'],
  ['A', 'R', 'M', 'E', 'B', 'V', '7', 'R', '_', 'N', 'O', 'N', 'E', '_', 'E', 'A', 'B', 'I', 'H', 'F'],
  ['A', 'R', 'M', 'V', '4', 'T', '_', 'N', 'O', 'N', 'E', '_', 'E', 'A', 'B', 'I'],
  ['A', 'R', 'M', 'V', '4', 'T', '_', 'U', 'N', 'K', 'N', 'O', 'W', 'N', '_', 'L', 'I', 'N', 'U', 'X', '_', 'G', 'N', 'U', 'E', 'A', 'B', 'I'],
  ['A', 'R', 'M', 'V', '5', 'T', 'E', '_', 'N', 'O', 'N', 'E', '_', 'E', 'A', 'B', 'I'],
  ['A', 'R', 'M', 'V', '5', 'T', 'E', '_', 'U', 'N', 'K', 'N', 'O', 'W', 'N', '_', 'L', 'I', 'N', 'U', 'X', '_', 'G', 'N', 'U', 'E', 'A', 'B', 'I'],
  ['A', 'R', 'M', 'V', '5', 'T', 'E', '_', 'U', 'N', 'K', 'N', 'O', 'W', 'N', '_', 'L', 'I', 'N', 'U', 'X', '_', 'M', 'U', 'S', 'L', 'E', 'A', 'B', 'I'],
  ['A', 'R', 'M', 'V', '5', 'T', 'E', '_', 'U', 'N', 'K', 'N', 'O', 'W', 'N', '_', 'L', 'I', 'N', 'U', 'X', '_', 'U', 'C', 'L', 'I', 'B', 'C', 'E', 'A', 'B', 'I'],
  ['A', 'R', 'M', 'V', '6', '_', 'N', 'O', 'N', 'E', '_', 'E', 'A', 'B', 'I'],
  ['A', 'R', 'M', 'V', '6', '_', 'N', 'O', 'N', 'E', '_', 'E', 'A', 'B', 'I', 'H', 'F'],
  ['A', 'R', 'M', 'V', '6', '_', 'U', 'N', 'K', 'N', 'O', 'W', 'N', '_', 'F', 'R', 'E', 'E', 'B', 'S', 'D'],
  ['A', 'R', 'M', 'V', '6', '_', 'U', 'N', 'K', 'N', 'O', 'W', 'N', '_', 'N', 'E', 'T', 'B', 'S', 'D', '_', 'E', 'A', 'B', 'I', 'H', 'F'],
  ['A', 'R', 'M', 'V', '6', 'K', '_', 'N', 'I', 'N', 'T', 'E', 'N', 'D', 'O', '_', '3', 'D', 'S'],
  ['A', 'R', 'M', 'V', '7', '_', 'L', 'I', 'N', 'U', 'X', '_', 'A', 'N', 'D', 'R', 'O', 'I', 'D', 'E', 'A', 'B', 'I'],
  ['A', 'R', 'M', 'V', '7', '_', 'O', 'E', '_', 'L', 'I', 'N', 'U', 'X', '_', 'G', 'N', 'U', 'E', 'A', 'B', 'I', 'H', 'F'],
  ['A', 'R', 'M', 'V', '7', '_', 'R', 'T', 'E', 'M', 'S', '_', 'E', 'A', 'B', 'I', 'H', 'F'],
  ['A', 'R', 'M', 'V', '7', '_', 'S', 'O', 'N', 'Y', '_', 'V', 'I', 'T', 'A', '_', 'N', 'E', 'W', 'L', 'I', 'B', 'E', 'A', 'B', 'I', 'H', 'F'],
  ['A', 'R', 'M', 'V', '7', '_', 'U', 'N', 'K', 'N', 'O', 'W', 'N', '_', 'F', 'R', 'E', 'E', 'B', 'S', 'D'],
  ['A', 'R', 'M', 'V', '7', '_', 'U', 'N', 'K', 'N', 'O', 'W', 'N', '_', 'L', 'I', 'N', 'U', 'X', '_', 'G', 'N', 'U', 'E', 'A', 'B', 'I'],
  ['A', 'R', 'M', 'V', '7', '_', 'U', 'N', 'K', 'N', 'O', 'W', 'N', '_', 'L', 'I', 'N', 'U', 'X', '_', 'G', 'N', 'U', 'E', 'A', 'B', 'I', 'H', 'F'],
  ['A', 'R', 'M', 'V', '7', '_', 'U', 'N', 'K', 'N', 'O', 'W', 'N', '_', 'L', 'I', 'N', 'U', 'X', '_', 'M', 'U', 'S', 'L', 'E', 'A', 'B', 'I'],
  ['A', 'R', 'M', 'V', '7', '_', 'U', 'N', 'K', 'N', 'O', 'W', 'N', '_', 'L', 'I', 'N', 'U', 'X', '_', 'M', 'U', 'S', 'L', 'E', 'A', 'B', 'I', 'H', 'F'],
  ['A', 'R', 'M', 'V', '7', '_', 'U', 'N', 'K', 'N', 'O', 'W', 'N', '_', 'L', 'I', 'N', 'U', 'X', '_', 'O', 'H', 'O', 'S'],
  ['A', 'R', 'M', 'V', '7', '_', 'U', 'N', 'K', 'N', 'O', 'W', 'N', '_', 'L', 'I', 'N', 'U', 'X', '_', 'U', 'C', 'L', 'I', 'B', 'C', 'E', 'A', 'B', 'I'],
  ['A', 'R', 'M', 'V', '7', '_', 'U', 'N', 'K', 'N', 'O', 'W', 'N', '_', 'L', 'I', 'N', 'U', 'X', '_', 'U', 'C', 'L', 'I', 'B', 'C', 'E', 'A', 'B', 'I', 'H', 'F'],
  ['A', 'R', 'M', 'V', '7', '_', 'U', 'N', 'K', 'N', 'O', 'W', 'N', '_', 'N', 'E', 'T', 'B', 'S', 'D', '_', 'E', 'A', 'B', 'I', 'H', 'F'],
  ['A', 'R', 'M', 'V', '7', '_', 'U', 'N', 'K', 'N', 'O', 'W', 'N', '_', 'T', 'R', 'U', 'S', 'T', 'Y'],
  ['A', 'R', 'M', 'V', '7', '_', 'W', 'R', 'S', '_', 'V', 'X', 'W', 'O', 'R', 'K', 'S', '_', 'E', 'A', 'B', 'I', 'H', 'F'],
  ['A', 'R', 'M', 'V', '7', 'A', '_', 'K', 'M', 'C', '_', 'S', 'O', 'L', 'I', 'D', '_', 'A', 'S', 'P', '3', '_', 'E', 'A', 'B', 'I'],
  ['A', 'R', 'M', 'V', '7', 'A', '_', 'K', 'M', 'C', '_', 'S', 'O', 'L', 'I', 'D', '_', 'A', 'S', 'P', '3', '_', 'E', 'A', 'B', 'I', 'H', 'F'],
  ['A', 'R', 'M', 'V', '7', 'A', '_', 'N', 'O', 'N', 'E', '_', 'E', 'A', 'B', 'I'],
  ['A', 'R', 'M', 'V', '7', 'A', '_', 'N', 'O', 'N', 'E', '_', 'E', 'A', 'B', 'I', 'H', 'F'],
  ['A', 'R', 'M', 'V', '7', 'A', '_', 'N', 'U', 'T', 'T', 'X', '_', 'E', 'A', 'B', 'I'],
  ['A', 'R', 'M', 'V', '7', 'A', '_', 'N', 'U', 'T', 'T', 'X', '_', 'E', 'A', 'B', 'I', 'H', 'F'],
  ['A', 'R', 'M', 'V', '7', 'K', '_', 'A', 'P', 'P', 'L', 'E', '_', 'W', 'A', 'T', 'C', 'H', 'O', 'S'],
  ['A', 'R', 'M', 'V', '7', 'R', '_', 'N', 'O', 'N', 'E', '_', 'E', 'A', 'B', 'I'],
  ['A', 'R', 'M', 'V', '7', 'R', '_', 'N', 'O', 'N', 'E', '_', 'E', 'A', 'B', 'I', 'H', 'F'],
  ['A', 'R', 'M', 'V', '7', 'S', '_', 'A', 'P', 'P', 'L', 'E', '_', 'I', 'O', 'S'],
  ['A', 'R', 'M', 'V', '8', 'R', '_', 'N', 'O', 'N', 'E', '_', 'E', 'A', 'B', 'I', 'H', 'F'],
  ['A', 'V', 'R', '_', 'N', 'O', 'N', 'E'],
  ['B', 'P', 'F', 'E', 'B', '_', 'U', 'N', 'K', 'N', 'O', 'W', 'N', '_', 'N', 'O', 'N', 'E'],
  ['B', 'P', 'F', 'E', 'L', '_', 'U', 'N', 'K', 'N', 'O', 'W', 'N', '_', 'N', 'O', 'N', 'E'],
  ['C', 'S', 'K', 'Y', '_', 'U', 'N', 'K', 'N', 'O', 'W', 'N', '_', 'L', 'I', 'N', 'U', 'X', '_', 'G', 'N', 'U', 'A', 'B', 'I', 'V', '2'],
  ['C', 'S', 'K', 'Y', '_', 'U', 'N', 'K', 'N', 'O', 'W', 'N', '_', 'L', 'I', 'N', 'U', 'X', '_', 'G', 'N', 'U', 'A', 'B', 'I', 'V', '2', 'H', 'F'],
  ['H', 'E', 'X', 'A', 'G', 'O', 'N', '_', 'U', 'N', 'K', 'N', 'O', 'W', 'N', '_', 'L', 'I', 'N', 'U', 'X', '_', 'M', 'U', 'S', 'L'],
  ['H', 'E', 'X', 'A', 'G', 'O', 'N', '_', 'U', 'N', 'K', 'N', 'O', 'W', 'N', '_', 'N', 'O', 'N', 'E', '_', 'E', 'L', 'F'],
  ['H', 'E', 'X', 'A', 'G', 'O', 'N', '_', 'U', 'N', 'K', 'N', 'O', 'W', 'N', '_', 'Q', 'U', 'R', 'T'],
  ['I', '3', '8', '6', '_', 'A', 'P', 'P', 'L', 'E', '_', 'I', 'O', 'S'],
  ['I', '5', '8', '6', '_', 'U', 'N', 'K', 'N', 'O', 'W', 'N', '_', 'L', 'I', 'N', 'U', 'X', '_', 'G', 'N', 'U'],
  ['I', '5', '8', '6', '_', 'U', 'N', 'K', 'N', 'O', 'W', 'N', '_', 'L', 'I', 'N', 'U', 'X', '_', 'M', 'U', 'S', 'L'],
  ['I', '5', '8', '6', '_', 'U', 'N', 'K', 'N', 'O', 'W', 'N', '_', 'N', 'E', 'T', 'B', 'S', 'D'],
  ['I', '5', '8', '6', '_', 'U', 'N', 'K', 'N', 'O', 'W', 'N', '_', 'R', 'E', 'D', 'O', 'X'],
  ['I', '6', '8', '6', '_', 'A', 'P', 'P', 'L', 'E', '_', 'D', 'A', 'R', 'W', 'I', 'N'],
  ['I', '6', '8', '6', '_', 'L', 'I', 'N', 'U', 'X', '_', 'A', 'N', 'D', 'R', 'O', 'I', 'D'],
  ['I', '6', '8', '6', '_', 'O', 'E', '_', 'L', 'I', 'N', 'U', 'X', '_', 'G', 'N', 'U'],
  ['I', '6', '8', '6', '_', 'P', 'C', '_', 'N', 'T', 'O', '_', 'Q', 'N', 'X', '7', '0', '0'],
  ['I', '6', '8', '6', '_', 'P', 'C', '_', 'W', 'I', 'N', 'D', 'O', 'W', 'S', '_', 'G', 'N', 'U'],
  ['I', '6', '8', '6', '_', 'P', 'C', '_', 'W', 'I', 'N', 'D', 'O', 'W', 'S', '_', 'G', 'N', 'U', 'L', 'L', 'V', 'M'],
  ['I', '6', '8', '6', '_', 'P', 'C', '_', 'W', 'I', 'N', 'D', 'O', 'W', 'S', '_', 'M', 'S', 'V', 'C'],
  ['I', '6', '8', '6', '_', 'U', 'N', 'K', 'N', 'O', 'W', 'N', '_', 'F', 'R', 'E', 'E', 'B', 'S', 'D'],
  ['I', '6', '8', '6', '_', 'U', 'N', 'K', 'N', 'O', 'W', 'N', '_', 'H', 'A', 'I', 'K', 'U'],
  ['I', '6', '8', '6', '_', 'U', 'N', 'K', 'N', 'O', 'W', 'N', '_', 'H', 'E', 'L', 'E', 'N', 'O', 'S'],
  ['I', '6', '8', '6', '_', 'U', 'N', 'K', 'N', 'O', 'W', 'N', '_', 'H', 'U', 'R', 'D', '_', 'G', 'N', 'U'],
  ['I', '6', '8', '6', '_', 'U', 'N', 'K', 'N', 'O', 'W', 'N', '_', 'L', 'I', 'N', 'U', 'X', '_', 'G', 'N', 'U'],
  ['I', '6', '8', '6', '_', 'U', 'N', 'K', 'N', 'O', 'W', 'N', '_', 'L', 'I', 'N', 'U', 'X', '_', 'M', 'U', 'S', 'L'],
  ['I', '6', '8', '6', '_', 'U', 'N', 'K', 'N', 'O', 'W', 'N', '_', 'N', 'E', 'T', 'B', 'S', 'D'],
  ['I', '6', '8', '6', '_', 'U', 'N', 'K', 'N', 'O', 'W', 'N', '_', 'O', 'P', 'E', 'N', 'B', 'S', 'D'],
  ['I', '6', '8', '6', '_', 'U', 'N', 'K', 'N', 'O', 'W', 'N', '_', 'U', 'E', 'F', 'I'],
  ['I', '6', '8', '6', '_', 'U', 'W', 'P', '_', 'W', 'I', 'N', 'D', 'O', 'W', 'S', '_', 'G', 'N', 'U'],
  ['I', '6', '8', '6', '_', 'U', 'W', 'P', '_', 'W', 'I', 'N', 'D', 'O', 'W', 'S', '_', 'M', 'S', 'V', 'C'],
  ['I', '6', '8', '6', '_', 'W', 'I', 'N', '7', '_', 'W', 'I', 'N', 'D', 'O', 'W', 'S', '_', 'G', 'N', 'U'],
  ['I', '6', '8', '6', '_', 'W', 'I', 'N', '7', '_', 'W', 'I', 'N', 'D', 'O', 'W', 'S', '_', 'M', 'S', 'V', 'C'],
  ['I', '6', '8', '6', '_', 'W', 'R', 'S', '_', 'V', 'X', 'W', 'O', 'R', 'K', 'S'],
  ['L', 'O', 'O', 'N', 'G', 'A', 'R', 'C', 'H', '3', '2', '_', 'U', 'N', 'K', 'N', 'O', 'W', 'N', '_', 'N', 'O', 'N', 'E'],
  ['L', 'O', 'O', 'N', 'G', 'A', 'R', 'C', 'H', '3', '2', '_', 'U', 'N', 'K', 'N', 'O', 'W', 'N', '_', 'N', 'O', 'N', 'E', '_', 'S', 'O', 'F', 'T', 'F', 'L', 'O', 'A', 'T'],
  ['L', 'O', 'O', 'N', 'G', 'A', 'R', 'C', 'H', '6', '4', '_', 'U', 'N', 'K', 'N', 'O', 'W', 'N', '_', 'L', 'I', 'N', 'U', 'X', '_', 'G', 'N', 'U'],
  ['L', 'O', 'O', 'N', 'G', 'A', 'R', 'C', 'H', '6', '4', '_', 'U', 'N', 'K', 'N', 'O', 'W', 'N', '_', 'L', 'I', 'N', 'U', 'X', '_', 'M', 'U', 'S', 'L'],
  ['L', 'O', 'O', 'N', 'G', 'A', 'R', 'C', 'H', '6', '4', '_', 'U', 'N', 'K', 'N', 'O', 'W', 'N', '_', 'L', 'I', 'N', 'U', 'X', '_', 'O', 'H', 'O', 'S'],
  ['L', 'O', 'O', 'N', 'G', 'A', 'R', 'C', 'H', '6', '4', '_', 'U', 'N', 'K', 'N', 'O', 'W', 'N', '_', 'N', 'O', 'N', 'E'],
  ['L', 'O', 'O', 'N', 'G', 'A', 'R', 'C', 'H', '6', '4', '_', 'U', 'N', 'K', 'N', 'O', 'W', 'N', '_', 'N', 'O', 'N', 'E', '_', 'S', 'O', 'F', 'T', 'F', 'L', 'O', 'A', 'T'],
  ['M', '6', '8', 'K', '_', 'U', 'N', 'K', 'N', 'O', 'W', 'N', '_', 'L', 'I', 'N', 'U', 'X', '_', 'G', 'N', 'U'],
  ['M', '6', '8', 'K', '_', 'U', 'N', 'K', 'N', 'O', 'W', 'N', '_', 'N', 'O', 'N', 'E', '_', 'E', 'L', 'F'],
  ['M', 'I', 'P', 'S', '_', 'M', 'T', 'I', '_', 'N', 'O', 'N', 'E', '_', 'E', 'L', 'F'],
  ['M', 'I', 'P', 'S', '_', 'U', 'N', 'K', 'N', 'O', 'W', 'N', '_', 'L', 'I', 'N', 'U', 'X', '_', 'G', 'N', 'U'],
  ['M', 'I', 'P', 'S', '_', 'U', 'N', 'K', 'N', 'O', 'W', 'N', '_', 'L', 'I', 'N', 'U', 'X', '_', 'M', 'U', 'S', 'L'],
  ['M', 'I', 'P', 'S', '_', 'U', 'N', 'K', 'N', 'O', 'W', 'N', '_', 'L', 'I', 'N', 'U', 'X', '_', 'U', 'C', 'L', 'I', 'B', 'C'],
  ['M', 'I', 'P', 'S', '6', '4', '_', 'O', 'P', 'E', 'N', 'W', 'R', 'T', '_', 'L', 'I', 'N', 'U', 'X', '_', 'M', 'U', 'S', 'L'],
  ['M', 'I', 'P', 'S', '6', '4', '_', 'U', 'N', 'K', 'N', 'O', 'W', 'N', '_', 'L', 'I', 'N', 'U', 'X', '_', 'G', 'N', 'U', 'A', 'B', 'I', '6', '4'],
  ['M', 'I', 'P', 'S', '6', '4', '_', 'U', 'N', 'K', 'N', 'O', 'W', 'N', '_', 'L', 'I', 'N', 'U', 'X', '_', 'M', 'U', 'S', 'L', 'A', 'B', 'I', '6', '4'],
  ['M', 'I', 'P', 'S', '6', '4', 'E', 'L', '_', 'U', 'N', 'K', 'N', 'O', 'W', 'N', '_', 'L', 'I', 'N', 'U', 'X', '_', 'G', 'N', 'U', 'A', 'B', 'I', '6', '4'],
  ['M', 'I', 'P', 'S', '6', '4', 'E', 'L', '_', 'U', 'N', 'K', 'N', 'O', 'W', 'N', '_', 'L', 'I', 'N', 'U', 'X', '_', 'M', 'U', 'S', 'L', 'A', 'B', 'I', '6', '4'],
  ['M', 'I', 'P', 'S', 'E', 'L', '_', 'M', 'T', 'I', '_', 'N', 'O', 'N', 'E', '_', 'E', 'L', 'F'],
  ['M', 'I', 'P', 'S', 'E', 'L', '_', 'S', 'O', 'N', 'Y', '_', 'P', 'S', 'P'],
  ['M', 'I', 'P', 'S', 'E', 'L', '_', 'S', 'O', 'N', 'Y', '_', 'P', 'S', 'X'],
  ['M', 'I', 'P', 'S', 'E', 'L', '_', 'U', 'N', 'K', 'N', 'O', 'W', 'N', '_', 'L', 'I', 'N', 'U', 'X', '_', 'G', 'N', 'U'],
  ['M', 'I', 'P', 'S', 'E', 'L', '_', 'U', 'N', 'K', 'N', 'O', 'W', 'N', '_', 'L', 'I', 'N', 'U', 'X', '_', 'M', 'U', 'S', 'L'],
  ['M', 'I', 'P', 'S', 'E', 'L', '_', 'U', 'N', 'K', 'N', 'O', 'W', 'N', '_', 'L', 'I', 'N', 'U', 'X', '_', 'U', 'C', 'L', 'I', 'B', 'C'],
  ['M', 'I', 'P', 'S', 'E', 'L', '_', 'U', 'N', 'K', 'N', 'O', 'W', 'N', '_', 'N', 'E', 'T', 'B', 'S', 'D'],
  ['M', 'I', 'P', 'S', 'E', 'L', '_', 'U', 'N', 'K', 'N', 'O', 'W', 'N', '_', 'N', 'O', 'N', 'E'],
  ['M', 'I', 'P', 'S', 'I', 'S', 'A', '3', '2', 'R', '6', '_', 'U', 'N', 'K', 'N', 'O', 'W', 'N', '_', 'L', 'I', 'N', 'U', 'X', '_', 'G', 'N', 'U'],
  ['M', 'I', 'P', 'S', 'I', 'S', 'A', '3', '2', 'R', '6', 'E', 'L', '_', 'U', 'N', 'K', 'N', 'O', 'W', 'N', '_', 'L', 'I', 'N', 'U', 'X', '_', 'G', 'N', 'U'],
  ['M', 'I', 'P', 'S', 'I', 'S', 'A', '6', '4', 'R', '6', '_', 'U', 'N', 'K', 'N', 'O', 'W', 'N', '_', 'L', 'I', 'N', 'U', 'X', '_', 'G', 'N', 'U', 'A', 'B', 'I', '6', '4'],
  ['M', 'I', 'P', 'S', 'I', 'S', 'A', '6', '4', 'R', '6', 'E', 'L', '_', 'U', 'N', 'K', 'N', 'O', 'W', 'N', '_', 'L', 'I', 'N', 'U', 'X', '_', 'G', 'N', 'U', 'A', 'B', 'I', '6', '4'],
  ['M', 'S', 'P', '4', '3', '0', '_', 'N', 'O', 'N', 'E', '_', 'E', 'L', 'F'],
  ['N', 'V', 'P', 'T', 'X', '6', '4', '_', 'N', 'V', 'I', 'D', 'I', 'A', '_', 'C', 'U', 'D', 'A'],
  ['P', 'O', 'W', 'E', 'R', 'P', 'C', '_', 'U', 'N', 'K', 'N', 'O', 'W', 'N', '_', 'F', 'R', 'E', 'E', 'B', 'S', 'D'],
  ['P', 'O', 'W', 'E', 'R', 'P', 'C', '_', 'U', 'N', 'K', 'N', 'O', 'W', 'N', '_', 'H', 'E', 'L', 'E', 'N', 'O', 'S'],
  ['P', 'O', 'W', 'E', 'R', 'P', 'C', '_', 'U', 'N', 'K', 'N', 'O', 'W', 'N', '_', 'L', 'I', 'N', 'U', 'X', '_', 'G', 'N', 'U'],
  ['P', 'O', 'W', 'E', 'R', 'P', 'C', '_', 'U', 'N', 'K', 'N', 'O', 'W', 'N', '_', 'L', 'I', 'N', 'U', 'X', '_', 'G', 'N', 'U', 'S', 'P', 'E'],
  ['P', 'O', 'W', 'E', 'R', 'P', 'C', '_', 'U', 'N', 'K', 'N', 'O', 'W', 'N', '_', 'L', 'I', 'N', 'U', 'X', '_', 'M', 'U', 'S', 'L'],
  ['P', 'O', 'W', 'E', 'R', 'P', 'C', '_', 'U', 'N', 'K', 'N', 'O', 'W', 'N', '_', 'L', 'I', 'N', 'U', 'X', '_', 'M', 'U', 'S', 'L', 'S', 'P', 'E'],
  ['P', 'O', 'W', 'E', 'R', 'P', 'C', '_', 'U', 'N', 'K', 'N', 'O', 'W', 'N', '_', 'N', 'E', 'T', 'B', 'S', 'D'],
  ['P', 'O', 'W', 'E', 'R', 'P', 'C', '_', 'U', 'N', 'K', 'N', 'O', 'W', 'N', '_', 'O', 'P', 'E', 'N', 'B', 'S', 'D'],
  ['P', 'O', 'W', 'E', 'R', 'P', 'C', '_', 'W', 'R', 'S', '_', 'V', 'X', 'W', 'O', 'R', 'K', 'S'],
  ['P', 'O', 'W', 'E', 'R', 'P', 'C', '_', 'W', 'R', 'S', '_', 'V', 'X', 'W', 'O', 'R', 'K', 'S', '_', 'S', 'P', 'E'],
  ['P', 'O', 'W', 'E', 'R', 'P', 'C', '6', '4', '_', 'I', 'B', 'M', '_', 'A', 'I', 'X'],
  ['P', 'O', 'W', 'E', 'R', 'P', 'C', '6', '4', '_', 'U', 'N', 'K', 'N', 'O', 'W', 'N', '_', 'F', 'R', 'E', 'E', 'B', 'S', 'D'],
  ['P', 'O', 'W', 'E', 'R', 'P', 'C', '6', '4', '_', 'U', 'N', 'K', 'N', 'O', 'W', 'N', '_', 'L', 'I', 'N', 'U', 'X', '_', 'G', 'N', 'U'],
  ['P', 'O', 'W', 'E', 'R', 'P', 'C', '6', '4', '_', 'U', 'N', 'K', 'N', 'O', 'W', 'N', '_', 'L', 'I', 'N', 'U', 'X', '_', 'G', 'N', 'U', 'E', 'L', 'F', 'V', '2'],
  ['P', 'O', 'W', 'E', 'R', 'P', 'C', '6', '4', '_', 'U', 'N', 'K', 'N', 'O', 'W', 'N', '_', 'L', 'I', 'N', 'U', 'X', '_', 'M', 'U', 'S', 'L'],
  ['P', 'O', 'W', 'E', 'R', 'P', 'C', '6', '4', '_', 'U', 'N', 'K', 'N', 'O', 'W', 'N', '_', 'O', 'P', 'E', 'N', 'B', 'S', 'D'],
  ['P', 'O', 'W', 'E', 'R', 'P', 'C', '6', '4', '_', 'W', 'R', 'S', '_', 'V', 'X', 'W', 'O', 'R', 'K', 'S'],
  ['P', 'O', 'W', 'E', 'R', 'P', 'C', '6', '4', 'L', 'E', '_', 'U', 'N', 'K', 'N', 'O', 'W', 'N', '_', 'F', 'R', 'E', 'E', 'B', 'S', 'D'],
  ['P', 'O', 'W', 'E', 'R', 'P', 'C', '6', '4', 'L', 'E', '_', 'U', 'N', 'K', 'N', 'O', 'W', 'N', '_', 'L', 'I', 'N', 'U', 'X', '_', 'G', 'N', 'U'],
  ['P', 'O', 'W', 'E', 'R', 'P', 'C', '6', '4', 'L', 'E', '_', 'U', 'N', 'K', 'N', 'O', 'W', 'N', '_', 'L', 'I', 'N', 'U', 'X', '_', 'M', 'U', 'S', 'L'],
  ['R', 'I', 'S', 'C', 'V', '3', '2', '_', 'W', 'R', 'S', '_', 'V', 'X', 'W', 'O', 'R', 'K', 'S'],
  ['R', 'I', 'S', 'C', 'V', '3', '2', 'E', '_', 'U', 'N', 'K', 'N', 'O', 'W', 'N', '_', 'N', 'O', 'N', 'E', '_', 'E', 'L', 'F'],
  ['R', 'I', 'S', 'C', 'V', '3', '2', 'E', 'M', '_', 'U', 'N', 'K', 'N', 'O', 'W', 'N', '_', 'N', 'O', 'N', 'E', '_', 'E', 'L', 'F'],
  ['R', 'I', 'S', 'C', 'V', '3', '2', 'E', 'M', 'C', '_', 'U', 'N', 'K', 'N', 'O', 'W', 'N', '_', 'N', 'O', 'N', 'E', '_', 'E', 'L', 'F'],
  ['R', 'I', 'S', 'C', 'V', '3', '2', 'G', 'C', '_', 'U', 'N', 'K', 'N', 'O', 'W', 'N', '_', 'L', 'I', 'N', 'U', 'X', '_', 'G', 'N', 'U'],
  ['R', 'I', 'S', 'C', 'V', '3', '2', 'G', 'C', '_', 'U', 'N', 'K', 'N', 'O', 'W', 'N', '_', 'L', 'I', 'N', 'U', 'X', '_', 'M', 'U', 'S', 'L'],
  ['R', 'I', 'S', 'C', 'V', '3', '2', 'I', '_', 'U', 'N', 'K', 'N', 'O', 'W', 'N', '_', 'N', 'O', 'N', 'E', '_', 'E', 'L', 'F'],
  ['R', 'I', 'S', 'C', 'V', '3', '2', 'I', 'M', '_', 'R', 'I', 'S', 'C', '0', '_', 'Z', 'K', 'V', 'M', '_', 'E', 'L', 'F'],
  ['R', 'I', 'S', 'C', 'V', '3', '2', 'I', 'M', '_', 'U', 'N', 'K', 'N', 'O', 'W', 'N', '_', 'N', 'O', 'N', 'E', '_', 'E', 'L', 'F'],
  ['R', 'I', 'S', 'C', 'V', '3', '2', 'I', 'M', 'A', '_', 'U', 'N', 'K', 'N', 'O', 'W', 'N', '_', 'N', 'O', 'N', 'E', '_', 'E', 'L', 'F'],
  ['R', 'I', 'S', 'C', 'V', '3', '2', 'I', 'M', 'A', 'C', '_', 'E', 'S', 'P', '_', 'E', 'S', 'P', 'I', 'D', 'F'],
  ['R', 'I', 'S', 'C', 'V', '3', '2', 'I', 'M', 'A', 'C', '_', 'U', 'N', 'K', 'N', 'O', 'W', 'N', '_', 'N', 'O', 'N', 'E', '_', 'E', 'L', 'F'],
  ['R', 'I', 'S', 'C', 'V', '3', '2', 'I', 'M', 'A', 'C', '_', 'U', 'N', 'K', 'N', 'O', 'W', 'N', '_', 'N', 'U', 'T', 'T', 'X', '_', 'E', 'L', 'F'],
  ['R', 'I', 'S', 'C', 'V', '3', '2', 'I', 'M', 'A', 'C', '_', 'U', 'N', 'K', 'N', 'O', 'W', 'N', '_', 'X', 'O', 'U', 'S', '_', 'E', 'L', 'F'],
  ['R', 'I', 'S', 'C', 'V', '3', '2', 'I', 'M', 'A', 'F', 'C', '_', 'E', 'S', 'P', '_', 'E', 'S', 'P', 'I', 'D', 'F'],
  ['R', 'I', 'S', 'C', 'V', '3', '2', 'I', 'M', 'A', 'F', 'C', '_', 'U', 'N', 'K', 'N', 'O', 'W', 'N', '_', 'N', 'O', 'N', 'E', '_', 'E', 'L', 'F'],
  ['R', 'I', 'S', 'C', 'V', '3', '2', 'I', 'M', 'A', 'F', 'C', '_', 'U', 'N', 'K', 'N', 'O', 'W', 'N', '_', 'N', 'U', 'T', 'T', 'X', '_', 'E', 'L', 'F'],
  ['R', 'I', 'S', 'C', 'V', '3', '2', 'I', 'M', 'C', '_', 'E', 'S', 'P', '_', 'E', 'S', 'P', 'I', 'D', 'F'],
  ['R', 'I', 'S', 'C', 'V', '3', '2', 'I', 'M', 'C', '_', 'U', 'N', 'K', 'N', 'O', 'W', 'N', '_', 'N', 'O', 'N', 'E', '_', 'E', 'L', 'F'],
  ['R', 'I', 'S', 'C', 'V', '3', '2', 'I', 'M', 'C', '_', 'U', 'N', 'K', 'N', 'O', 'W', 'N', '_', 'N', 'U', 'T', 'T', 'X', '_', 'E', 'L', 'F'],
  ['R', 'I', 'S', 'C', 'V', '3', '2', 'I', 'M', 'F', 'C', '_', 'U', 'N', 'K', 'N', 'O', 'W', 'N', '_', 'N', 'O', 'N', 'E', '_', 'E', 'L', 'F'],
  ['R', 'I', 'S', 'C', 'V', '6', '4', '_', 'L', 'I', 'N', 'U', 'X', '_', 'A', 'N', 'D', 'R', 'O', 'I', 'D'],
  ['R', 'I', 'S', 'C', 'V', '6', '4', '_', 'O', 'E', '_', 'L', 'I', 'N', 'U', 'X', '_', 'G', 'N', 'U'],
  ['R', 'I', 'S', 'C', 'V', '6', '4', '_', 'W', 'R', 'S', '_', 'V', 'X', 'W', 'O', 'R', 'K', 'S'],
  ['R', 'I', 'S', 'C', 'V', '6', '4', 'A', '2', '3', '_', 'U', 'N', 'K', 'N', 'O', 'W', 'N', '_', 'L', 'I', 'N', 'U', 'X', '_', 'G', 'N', 'U'],
  ['R', 'I', 'S', 'C', 'V', '6', '4', 'G', 'C', '_', 'U', 'N', 'K', 'N', 'O', 'W', 'N', '_', 'F', 'R', 'E', 'E', 'B', 'S', 'D'],
  ['R', 'I', 'S', 'C', 'V', '6', '4', 'G', 'C', '_', 'U', 'N', 'K', 'N', 'O', 'W', 'N', '_', 'F', 'U', 'C', 'H', 'S', 'I', 'A'],
  ['R', 'I', 'S', 'C', 'V', '6', '4', 'G', 'C', '_', 'U', 'N', 'K', 'N', 'O', 'W', 'N', '_', 'H', 'E', 'R', 'M', 'I', 'T'],
  ['R', 'I', 'S', 'C', 'V', '6', '4', 'G', 'C', '_', 'U', 'N', 'K', 'N', 'O', 'W', 'N', '_', 'L', 'I', 'N', 'U', 'X', '_', 'G', 'N', 'U'],
  ['R', 'I', 'S', 'C', 'V', '6', '4', 'G', 'C', '_', 'U', 'N', 'K', 'N', 'O', 'W', 'N', '_', 'L', 'I', 'N', 'U', 'X', '_', 'M', 'U', 'S', 'L'],
  ['R', 'I', 'S', 'C', 'V', '6', '4', 'G', 'C', '_', 'U', 'N', 'K', 'N', 'O', 'W', 'N', '_', 'M', 'A', 'N', 'A', 'G', 'A', 'R', 'M', '_', 'M', 'L', 'I', 'B', 'C'],
  ['R', 'I', 'S', 'C', 'V', '6', '4', 'G', 'C', '_', 'U', 'N', 'K', 'N', 'O', 'W', 'N', '_', 'N', 'E', 'T', 'B', 'S', 'D'],
  ['R', 'I', 'S', 'C', 'V', '6', '4', 'G', 'C', '_', 'U', 'N', 'K', 'N', 'O', 'W', 'N', '_', 'N', 'O', 'N', 'E', '_', 'E', 'L', 'F'],
  ['R', 'I', 'S', 'C', 'V', '6', '4', 'G', 'C', '_', 'U', 'N', 'K', 'N', 'O', 'W', 'N', '_', 'N', 'U', 'T', 'T', 'X', '_', 'E', 'L', 'F'],
  ['R', 'I', 'S', 'C', 'V', '6', '4', 'G', 'C', '_', 'U', 'N', 'K', 'N', 'O', 'W', 'N', '_', 'O', 'P', 'E', 'N', 'B', 'S', 'D'],
  ['R', 'I', 'S', 'C', 'V', '6', '4', 'G', 'C', '_', 'U', 'N', 'K', 'N', 'O', 'W', 'N', '_', 'R', 'E', 'D', 'O', 'X'],
  ['R', 'I', 'S', 'C', 'V', '6', '4', 'I', 'M', '_', 'U', 'N', 'K', 'N', 'O', 'W', 'N', '_', 'N', 'O', 'N', 'E', '_', 'E', 'L', 'F'],
  ['R', 'I', 'S', 'C', 'V', '6', '4', 'I', 'M', 'A', 'C', '_', 'U', 'N', 'K', 'N', 'O', 'W', 'N', '_', 'N', 'O', 'N', 'E', '_', 'E', 'L', 'F'],
  ['R', 'I', 'S', 'C', 'V', '6', '4', 'I', 'M', 'A', 'C', '_', 'U', 'N', 'K', 'N', 'O', 'W', 'N', '_', 'N', 'U', 'T', 'T', 'X', '_', 'E', 'L', 'F'],
  ['S', '3', '9', '0', 'X', '_', 'U', 'N', 'K', 'N', 'O', 'W', 'N', '_', 'L', 'I', 'N', 'U', 'X', '_', 'G', 'N', 'U'],
  ['S', '3', '9', '0', 'X', '_', 'U', 'N', 'K', 'N', 'O', 'W', 'N', '_', 'L', 'I', 'N', 'U', 'X', '_', 'M', 'U', 'S', 'L'],
  ['S', '3', '9', '0', 'X', '_', 'U', 'N', 'K', 'N', 'O', 'W', 'N', '_', 'N', 'O', 'N', 'E', '_', 'S', 'O', 'F', 'T', 'F', 'L', 'O', 'A', 'T'],
  ['S', 'P', 'A', 'R', 'C', '_', 'U', 'N', 'K', 'N', 'O', 'W', 'N', '_', 'L', 'I', 'N', 'U', 'X', '_', 'G', 'N', 'U'],
  ['S', 'P', 'A', 'R', 'C', '_', 'U', 'N', 'K', 'N', 'O', 'W', 'N', '_', 'N', 'O', 'N', 'E', '_', 'E', 'L', 'F'],
  ['S', 'P', 'A', 'R', 'C', '6', '4', '_', 'U', 'N', 'K', 'N', 'O', 'W', 'N', '_', 'H', 'E', 'L', 'E', 'N', 'O', 'S'],
  ['S', 'P', 'A', 'R', 'C', '6', '4', '_', 'U', 'N', 'K', 'N', 'O', 'W', 'N', '_', 'L', 'I', 'N', 'U', 'X', '_', 'G', 'N', 'U'],
  ['S', 'P', 'A', 'R', 'C', '6', '4', '_', 'U', 'N', 'K', 'N', 'O', 'W', 'N', '_', 'N', 'E', 'T', 'B', 'S', 'D'],
  ['S', 'P', 'A', 'R', 'C', '6', '4', '_', 'U', 'N', 'K', 'N', 'O', 'W', 'N', '_', 'O', 'P', 'E', 'N', 'B', 'S', 'D'],
  ['S', 'P', 'A', 'R', 'C', 'V', '9', '_', 'S', 'U', 'N', '_', 'S', 'O', 'L', 'A', 'R', 'I', 'S'],
  ['T', 'H', 'U', 'M', 'B', 'V', '4', 'T', '_', 'N', 'O', 'N', 'E', '_', 'E', 'A', 'B', 'I'],
  ['T', 'H', 'U', 'M', 'B', 'V', '5', 'T', 'E', '_', 'N', 'O', 'N', 'E', '_', 'E', 'A', 'B', 'I'],
  ['T', 'H', 'U', 'M', 'B', 'V', '6', '_', 'N', 'O', 'N', 'E', '_', 'E', 'A', 'B', 'I'],
  ['T', 'H', 'U', 'M', 'B', 'V', '6', 'M', '_', 'N', 'O', 'N', 'E', '_', 'E', 'A', 'B', 'I'],
  ['T', 'H', 'U', 'M', 'B', 'V', '6', 'M', '_', 'N', 'U', 'T', 'T', 'X', '_', 'E', 'A', 'B', 'I'],
  ['T', 'H', 'U', 'M', 'B', 'V', '7', 'A', '_', 'N', 'O', 'N', 'E', '_', 'E', 'A', 'B', 'I'],
  ['T', 'H', 'U', 'M', 'B', 'V', '7', 'A', '_', 'N', 'O', 'N', 'E', '_', 'E', 'A', 'B', 'I', 'H', 'F'],
  ['T', 'H', 'U', 'M', 'B', 'V', '7', 'A', '_', 'N', 'U', 'T', 'T', 'X', '_', 'E', 'A', 'B', 'I'],
  ['T', 'H', 'U', 'M', 'B', 'V', '7', 'A', '_', 'N', 'U', 'T', 'T', 'X', '_', 'E', 'A', 'B', 'I', 'H', 'F'],
  ['T', 'H', 'U', 'M', 'B', 'V', '7', 'A', '_', 'P', 'C', '_', 'W', 'I', 'N', 'D', 'O', 'W', 'S', '_', 'M', 'S', 'V', 'C'],
  ['T', 'H', 'U', 'M', 'B', 'V', '7', 'A', '_', 'U', 'W', 'P', '_', 'W', 'I', 'N', 'D', 'O', 'W', 'S', '_', 'M', 'S', 'V', 'C'],
  ['T', 'H', 'U', 'M', 'B', 'V', '7', 'A', '_', 'V', 'E', 'X', '_', 'V', '5'],
  ['T', 'H', 'U', 'M', 'B', 'V', '7', 'E', 'M', '_', 'N', 'O', 'N', 'E', '_', 'E', 'A', 'B', 'I'],
  ['T', 'H', 'U', 'M', 'B', 'V', '7', 'E', 'M', '_', 'N', 'O', 'N', 'E', '_', 'E', 'A', 'B', 'I', 'H', 'F'],
  ['T', 'H', 'U', 'M', 'B', 'V', '7', 'E', 'M', '_', 'N', 'U', 'T', 'T', 'X', '_', 'E', 'A', 'B', 'I'],
  ['T', 'H', 'U', 'M', 'B', 'V', '7', 'E', 'M', '_', 'N', 'U', 'T', 'T', 'X', '_', 'E', 'A', 'B', 'I', 'H', 'F'],
  ['T', 'H', 'U', 'M', 'B', 'V', '7', 'M', '_', 'N', 'O', 'N', 'E', '_', 'E', 'A', 'B', 'I'],
  ['T', 'H', 'U', 'M', 'B', 'V', '7', 'M', '_', 'N', 'U', 'T', 'T', 'X', '_', 'E', 'A', 'B', 'I'],
  ['T', 'H', 'U', 'M', 'B', 'V', '7', 'N', 'E', 'O', 'N', '_', 'L', 'I', 'N', 'U', 'X', '_', 'A', 'N', 'D', 'R', 'O', 'I', 'D', 'E', 'A', 'B', 'I'],
  ['T', 'H', 'U', 'M', 'B', 'V', '7', 'N', 'E', 'O', 'N', '_', 'U', 'N', 'K', 'N', 'O', 'W', 'N', '_', 'L', 'I', 'N', 'U', 'X', '_', 'G', 'N', 'U', 'E', 'A', 'B', 'I', 'H', 'F'],
  ['T', 'H', 'U', 'M', 'B', 'V', '7', 'N', 'E', 'O', 'N', '_', 'U', 'N', 'K', 'N', 'O', 'W', 'N', '_', 'L', 'I', 'N', 'U', 'X', '_', 'M', 'U', 'S', 'L', 'E', 'A', 'B', 'I', 'H', 'F'],
  ['T', 'H', 'U', 'M', 'B', 'V', '7', 'R', '_', 'N', 'O', 'N', 'E', '_', 'E', 'A', 'B', 'I'],
  ['T', 'H', 'U', 'M', 'B', 'V', '7', 'R', '_', 'N', 'O', 'N', 'E', '_', 'E', 'A', 'B', 'I', 'H', 'F'],
  ['T', 'H', 'U', 'M', 'B', 'V', '8', 'M', '_', 'B', 'A', 'S', 'E', '_', 'N', 'O', 'N', 'E', '_', 'E', 'A', 'B', 'I'],
  ['T', 'H', 'U', 'M', 'B', 'V', '8', 'M', '_', 'B', 'A', 'S', 'E', '_', 'N', 'U', 'T', 'T', 'X', '_', 'E', 'A', 'B', 'I'],
  ['T', 'H', 'U', 'M', 'B', 'V', '8', 'M', '_', 'M', 'A', 'I', 'N', '_', 'N', 'O', 'N', 'E', '_', 'E', 'A', 'B', 'I'],
  ['T', 'H', 'U', 'M', 'B', 'V', '8', 'M', '_', 'M', 'A', 'I', 'N', '_', 'N', 'O', 'N', 'E', '_', 'E', 'A', 'B', 'I', 'H', 'F'],
  ['T', 'H', 'U', 'M', 'B', 'V', '8', 'M', '_', 'M', 'A', 'I', 'N', '_', 'N', 'U', 'T', 'T', 'X', '_', 'E', 'A', 'B', 'I'],
  ['T', 'H', 'U', 'M', 'B', 'V', '8', 'M', '_', 'M', 'A', 'I', 'N', '_', 'N', 'U', 'T', 'T', 'X', '_', 'E', 'A', 'B', 'I', 'H', 'F'],
  ['T', 'H', 'U', 'M', 'B', 'V', '8', 'R', '_', 'N', 'O', 'N', 'E', '_', 'E', 'A', 'B', 'I', 'H', 'F'],
  ['W', 'A', 'S', 'M', '3', '2', '_', 'U', 'N', 'K', 'N', 'O', 'W', 'N', '_', 'E', 'M', 'S', 'C', 'R', 'I', 'P', 'T', 'E', 'N'],
  ['W', 'A', 'S', 'M', '3', '2', '_', 'U', 'N', 'K', 'N', 'O', 'W', 'N', '_', 'U', 'N', 'K', 'N', 'O', 'W', 'N'],
  ['W', 'A', 'S', 'M', '3', '2', '_', 'W', 'A', 'L', 'I', '_', 'L', 'I', 'N', 'U', 'X', '_', 'M', 'U', 'S', 'L'],
  ['W', 'A', 'S', 'M', '3', '2', '_', 'W', 'A', 'S', 'I', 'P', '1'],
  ['W', 'A', 'S', 'M', '3', '2', '_', 'W', 'A', 'S', 'I', 'P', '1', '_', 'T', 'H', 'R', 'E', 'A', 'D', 'S'],
  ['W', 'A', 'S', 'M', '3', '2', '_', 'W', 'A', 'S', 'I', 'P', '2'],
  ['W', 'A', 'S', 'M', '3', '2', '_', 'W', 'A', 'S', 'I', 'P', '3'],
  ['W', 'A', 'S', 'M', '3', '2', 'V', '1', '_', 'N', 'O', 'N', 'E'],
  ['W', 'A', 'S', 'M', '6', '4', '_', 'U', 'N', 'K', 'N', 'O', 'W', 'N', '_', 'U', 'N', 'K', 'N', 'O', 'W', 'N'],
  ['X', '8', '6', '_', '6', '4', '_', 'A', 'P', 'P', 'L', 'E', '_', 'D', 'A', 'R', 'W', 'I', 'N'],
  ['X', '8', '6', '_', '6', '4', '_', 'A', 'P', 'P', 'L', 'E', '_', 'I', 'O', 'S'],
  ['X', '8', '6', '_', '6', '4', '_', 'A', 'P', 'P', 'L', 'E', '_', 'I', 'O', 'S', '_', 'M', 'A', 'C', 'A', 'B', 'I'],
  ['X', '8', '6', '_', '6', '4', '_', 'A', 'P', 'P', 'L', 'E', '_', 'T', 'V', 'O', 'S'],
  ['X', '8', '6', '_', '6', '4', '_', 'A', 'P', 'P', 'L', 'E', '_', 'W', 'A', 'T', 'C', 'H', 'O', 'S', '_', 'S', 'I', 'M'],
  ['X', '8', '6', '_', '6', '4', '_', 'F', 'O', 'R', 'T', 'A', 'N', 'I', 'X', '_', 'U', 'N', 'K', 'N', 'O', 'W', 'N', '_', 'S', 'G', 'X'],
  ['X', '8', '6', '_', '6', '4', '_', 'L', 'I', 'N', 'U', 'X', '_', 'A', 'N', 'D', 'R', 'O', 'I', 'D'],
  ['X', '8', '6', '_', '6', '4', '_', 'L', 'Y', 'N', 'X', '_', 'L', 'Y', 'N', 'X', 'O', 'S', '1', '7', '8'],
  ['X', '8', '6', '_', '6', '4', '_', 'O', 'E', '_', 'L', 'I', 'N', 'U', 'X', '_', 'G', 'N', 'U'],
  ['X', '8', '6', '_', '6', '4', '_', 'P', 'C', '_', 'C', 'Y', 'G', 'W', 'I', 'N'],
  ['X', '8', '6', '_', '6', '4', '_', 'P', 'C', '_', 'N', 'T', 'O', '_', 'Q', 'N', 'X', '7', '1', '0'],
  ['X', '8', '6', '_', '6', '4', '_', 'P', 'C', '_', 'N', 'T', 'O', '_', 'Q', 'N', 'X', '7', '1', '0', '_', 'I', 'O', 'S', 'O', 'C', 'K'],
  ['X', '8', '6', '_', '6', '4', '_', 'P', 'C', '_', 'Q', 'N', 'X'],
  ['X', '8', '6', '_', '6', '4', '_', 'P', 'C', '_', 'S', 'O', 'L', 'A', 'R', 'I', 'S'],
  ['X', '8', '6', '_', '6', '4', '_', 'P', 'C', '_', 'W', 'I', 'N', 'D', 'O', 'W', 'S', '_', 'G', 'N', 'U'],
  ['X', '8', '6', '_', '6', '4', '_', 'P', 'C', '_', 'W', 'I', 'N', 'D', 'O', 'W', 'S', '_', 'G', 'N', 'U', 'L', 'L', 'V', 'M'],
  ['X', '8', '6', '_', '6', '4', '_', 'P', 'C', '_', 'W', 'I', 'N', 'D', 'O', 'W', 'S', '_', 'M', 'S', 'V', 'C'],
  ['X', '8', '6', '_', '6', '4', '_', 'U', 'N', 'I', 'K', 'R', 'A', 'F', 'T', '_', 'L', 'I', 'N', 'U', 'X', '_', 'M', 'U', 'S', 'L'],
  ['X', '8', '6', '_', '6', '4', '_', 'U', 'N', 'K', 'N', 'O', 'W', 'N', '_', 'D', 'R', 'A', 'G', 'O', 'N', 'F', 'L', 'Y'],
  ['X', '8', '6', '_', '6', '4', '_', 'U', 'N', 'K', 'N', 'O', 'W', 'N', '_', 'F', 'R', 'E', 'E', 'B', 'S', 'D'],
  ['X', '8', '6', '_', '6', '4', '_', 'U', 'N', 'K', 'N', 'O', 'W', 'N', '_', 'F', 'U', 'C', 'H', 'S', 'I', 'A'],
  ['X', '8', '6', '_', '6', '4', '_', 'U', 'N', 'K', 'N', 'O', 'W', 'N', '_', 'H', 'A', 'I', 'K', 'U'],
  ['X', '8', '6', '_', '6', '4', '_', 'U', 'N', 'K', 'N', 'O', 'W', 'N', '_', 'H', 'E', 'L', 'E', 'N', 'O', 'S'],
  ['X', '8', '6', '_', '6', '4', '_', 'U', 'N', 'K', 'N', 'O', 'W', 'N', '_', 'H', 'E', 'R', 'M', 'I', 'T'],
  ['X', '8', '6', '_', '6', '4', '_', 'U', 'N', 'K', 'N', 'O', 'W', 'N', '_', 'H', 'U', 'R', 'D', '_', 'G', 'N', 'U'],
  ['X', '8', '6', '_', '6', '4', '_', 'U', 'N', 'K', 'N', 'O', 'W', 'N', '_', 'I', 'L', 'L', 'U', 'M', 'O', 'S'],
  ['X', '8', '6', '_', '6', '4', '_', 'U', 'N', 'K', 'N', 'O', 'W', 'N', '_', 'L', '4', 'R', 'E', '_', 'U', 'C', 'L', 'I', 'B', 'C'],
  ['X', '8', '6', '_', '6', '4', '_', 'U', 'N', 'K', 'N', 'O', 'W', 'N', '_', 'L', 'I', 'N', 'U', 'X', '_', 'G', 'N', 'U'],
  ['X', '8', '6', '_', '6', '4', '_', 'U', 'N', 'K', 'N', 'O', 'W', 'N', '_', 'L', 'I', 'N', 'U', 'X', '_', 'G', 'N', 'U', 'A', 'S', 'A', 'N'],
  ['X', '8', '6', '_', '6', '4', '_', 'U', 'N', 'K', 'N', 'O', 'W', 'N', '_', 'L', 'I', 'N', 'U', 'X', '_', 'G', 'N', 'U', 'M', 'S', 'A', 'N'],
  ['X', '8', '6', '_', '6', '4', '_', 'U', 'N', 'K', 'N', 'O', 'W', 'N', '_', 'L', 'I', 'N', 'U', 'X', '_', 'G', 'N', 'U', 'T', 'S', 'A', 'N'],
  ['X', '8', '6', '_', '6', '4', '_', 'U', 'N', 'K', 'N', 'O', 'W', 'N', '_', 'L', 'I', 'N', 'U', 'X', '_', 'G', 'N', 'U', 'X', '3', '2'],
  ['X', '8', '6', '_', '6', '4', '_', 'U', 'N', 'K', 'N', 'O', 'W', 'N', '_', 'L', 'I', 'N', 'U', 'X', '_', 'M', 'U', 'S', 'L'],
  ['X', '8', '6', '_', '6', '4', '_', 'U', 'N', 'K', 'N', 'O', 'W', 'N', '_', 'L', 'I', 'N', 'U', 'X', '_', 'N', 'O', 'N', 'E'],
  ['X', '8', '6', '_', '6', '4', '_', 'U', 'N', 'K', 'N', 'O', 'W', 'N', '_', 'L', 'I', 'N', 'U', 'X', '_', 'O', 'H', 'O', 'S'],
  ['X', '8', '6', '_', '6', '4', '_', 'U', 'N', 'K', 'N', 'O', 'W', 'N', '_', 'M', 'A', 'N', 'A', 'G', 'A', 'R', 'M', '_', 'M', 'L', 'I', 'B', 'C'],
  ['X', '8', '6', '_', '6', '4', '_', 'U', 'N', 'K', 'N', 'O', 'W', 'N', '_', 'M', 'O', 'T', 'O', 'R'],
  ['X', '8', '6', '_', '6', '4', '_', 'U', 'N', 'K', 'N', 'O', 'W', 'N', '_', 'N', 'E', 'T', 'B', 'S', 'D'],
  ['X', '8', '6', '_', '6', '4', '_', 'U', 'N', 'K', 'N', 'O', 'W', 'N', '_', 'N', 'O', 'N', 'E'],
  ['X', '8', '6', '_', '6', '4', '_', 'U', 'N', 'K', 'N', 'O', 'W', 'N', '_', 'O', 'P', 'E', 'N', 'B', 'S', 'D'],
  ['X', '8', '6', '_', '6', '4', '_', 'U', 'N', 'K', 'N', 'O', 'W', 'N', '_', 'R', 'E', 'D', 'O', 'X'],
  ['X', '8', '6', '_', '6', '4', '_', 'U', 'N', 'K', 'N', 'O', 'W', 'N', '_', 'T', 'R', 'U', 'S', 'T', 'Y'],
  ['X', '8', '6', '_', '6', '4', '_', 'U', 'N', 'K', 'N', 'O', 'W', 'N', '_', 'U', 'E', 'F', 'I'],
  ['X', '8', '6', '_', '6', '4', '_', 'U', 'W', 'P', '_', 'W', 'I', 'N', 'D', 'O', 'W', 'S', '_', 'G', 'N', 'U'],
  ['X', '8', '6', '_', '6', '4', '_', 'U', 'W', 'P', '_', 'W', 'I', 'N', 'D', 'O', 'W', 'S', '_', 'M', 'S', 'V', 'C'],
  ['X', '8', '6', '_', '6', '4', '_', 'W', 'I', 'N', '7', '_', 'W', 'I', 'N', 'D', 'O', 'W', 'S', '_', 'G', 'N', 'U'],
  ['X', '8', '6', '_', '6', '4', '_', 'W', 'I', 'N', '7', '_', 'W', 'I', 'N', 'D', 'O', 'W', 'S', '_', 'M', 'S', 'V', 'C'],
  ['X', '8', '6', '_', '6', '4', '_', 'W', 'R', 'S', '_', 'V', 'X', 'W', 'O', 'R', 'K', 'S'],
  ['X', '8', '6', '_', '6', '4', 'H', '_', 'A', 'P', 'P', 'L', 'E', '_', 'D', 'A', 'R', 'W', 'I', 'N'],
  ['X', 'T', 'E', 'N', 'S', 'A', '_', 'E', 'S', 'P', '3', '2', '_', 'E', 'S', 'P', 'I', 'D', 'F'],
  ['X', 'T', 'E', 'N', 'S', 'A', '_', 'E', 'S', 'P', '3', '2', '_', 'N', 'O', 'N', 'E', '_', 'E', 'L', 'F'],
  ['X', 'T', 'E', 'N', 'S', 'A', '_', 'E', 'S', 'P', '3', '2', 'S', '2', '_', 'E', 'S', 'P', 'I', 'D', 'F'],
  ['X', 'T', 'E', 'N', 'S', 'A', '_', 'E', 'S', 'P', '3', '2', 'S', '2', '_', 'N', 'O', 'N', 'E', '_', 'E', 'L', 'F'],
  ['X', 'T', 'E', 'N', 'S', 'A', '_', 'E', 'S', 'P', '3', '2', 'S', '3', '_', 'E', 'S', 'P', 'I', 'D', 'F'],
  ['X', 'T', 'E', 'N', 'S', 'A', '_', 'E', 'S', 'P', '3', '2', 'S', '3', '_', 'N', 'O', 'N', 'E', '_', 'E', 'L', 'F']]

/-- `platforms.rs`: constants 0 to 49, and the triple of each. -/
def consts0 : List (Str × Str) := [
  (['A', 'A', 'R', 'C', 'H', '6', '4', '_', 'A', 'P', 'P', 'L', 'E', '_', 'D', 'A', 'R', 'W', 'I', 'N'], ['a', 'a', 'r', 'c', 'h', '6', '4', '-', 'a', 'p', 'p', 'l', 'e', '-', 'd', 'a', 'r', 'w', 'i', 'n']),
  (['A', 'A', 'R', 'C', 'H', '6', '4', '_', 'A', 'P', 'P', 'L', 'E', '_', 'I', 'O', 'S'], ['a', 'a', 'r', 'c', 'h', '6', '4', '-', 'a', 'p', 'p', 'l', 'e', '-', 'i', 'o', 's']),
  (['A', 'A', 'R', 'C', 'H', '6', '4', '_', 'A', 'P', 'P', 'L', 'E', '_', 'I', 'O', 'S', '_', 'M', 'A', 'C', 'A', 'B', 'I'], ['a', 'a', 'r', 'c', 'h', '6', '4', '-', 'a', 'p', 'p', 'l', 'e', '-', 'i', 'o', 's', '-', 'm', 'a', 'c', 'a', 'b', 'i']),
  (['A', 'A', 'R', 'C', 'H', '6', '4', '_', 'A', 'P', 'P', 'L', 'E', '_', 'I', 'O', 'S', '_', 'S', 'I', 'M'], ['a', 'a', 'r', 'c', 'h', '6', '4', '-', 'a', 'p', 'p', 'l', 'e', '-', 'i', 'o', 's', '-', 's', 'i', 'm']),
  (['A', 'A', 'R', 'C', 'H', '6', '4', '_', 'A', 'P', 'P', 'L', 'E', '_', 'T', 'V', 'O', 'S'], ['a', 'a', 'r', 'c', 'h', '6', '4', '-', 'a', 'p', 'p', 'l', 'e', '-', 't', 'v', 'o', 's']),
  (['A', 'A', 'R', 'C', 'H', '6', '4', '_', 'A', 'P', 'P', 'L', 'E', '_', 'T', 'V', 'O', 'S', '_', 'S', 'I', 'M'], ['a', 'a', 'r', 'c', 'h', '6', '4', '-', 'a', 'p', 'p', 'l', 'e', '-', 't', 'v', 'o', 's', '-', 's', 'i', 'm']),
  (['A', 'A', 'R', 'C', 'H', '6', '4', '_', 'A', 'P', 'P', 'L', 'E', '_', 'V', 'I', 'S', 'I', 'O', 'N', 'O', 'S'], ['a', 'a', 'r', 'c', 'h', '6', '4', '-', 'a', 'p', 'p', 'l', 'e', '-', 'v', 'i', 's', 'i', 'o', 'n', 'o', 's']),
  (['A', 'A', 'R', 'C', 'H', '6', '4', '_', 'A', 'P', 'P', 'L', 'E', '_', 'V', 'I', 'S', 'I', 'O', 'N', 'O', 'S', '_', 'S', 'I', 'M'], ['a', 'a', 'r', 'c', 'h', '6', '4', '-', 'a', 'p', 'p', 'l', 'e', '-', 'v', 'i', 's', 'i', 'o', 'n', 'o', 's', '-', 's', 'i', 'm']),
  (['A', 'A', 'R', 'C', 'H', '6', '4', '_', 'A', 'P', 'P', 'L', 'E', '_', 'W', 'A', 'T', 'C', 'H', 'O', 'S'], ['a', 'a', 'r', 'c', 'h', '6', '4', '-', 'a', 'p', 'p', 'l', 'e', '-', 'w', 'a', 't', 'c', 'h', 'o', 's']),
  (['A', 'A', 'R', 'C', 'H', '6', '4', '_', 'A', 'P', 'P', 'L', 'E', '_', 'W', 'A', 'T', 'C', 'H', 'O', 'S', '_', 'S', 'I', 'M'], ['a', 'a', 'r', 'c', 'h', '6', '4', '-', 'a', 'p', 'p', 'l', 'e', '-', 'w', 'a', 't', 'c', 'h', 'o', 's', '-', 's', 'i', 'm']),
  (['A', 'A', 'R', 'C', 'H', '6', '4', '_', 'K', 'M', 'C', '_', 'S', 'O', 'L', 'I', 'D', '_', 'A', 'S', 'P', '3'], ['a', 'a', 'r', 'c', 'h', '6', '4', '-', 'k', 'm', 'c', '-', 's', 'o', 'l', 'i', 'd', '_', 'a', 's', 'p', '3']),
  (['A', 'A', 'R', 'C', 'H', '6', '4', '_', 'L', 'I', 'N', 'U', 'X', '_', 'A', 'N', 'D', 'R', 'O', 'I', 'D'], ['a', 'a', 'r', 'c', 'h', '6', '4', '-', 'l', 'i', 'n', 'u', 'x', '-', 'a', 'n', 'd', 'r', 'o', 'i', 'd']),
  (['A', 'A', 'R', 'C', 'H', '6', '4', '_', 'N', 'I', 'N', 'T', 'E', 'N', 'D', 'O', '_', 'S', 'W', 'I', 'T', 'C', 'H', '_', 'F', 'R', 'E', 'E', 'S', 'T', 'A', 'N', 'D', 'I', 'N', 'G'], ['a', 'a', 'r', 'c', 'h', '6', '4', '-', 'n', 'i', 'n', 't', 'e', 'n', 'd', 'o', '-', 's', 'w', 'i', 't', 'c', 'h', '-', 'f', 'r', 'e', 'e', 's', 't', 'a', 'n', 'd', 'i', 'n', 'g']),
  (['A', 'A', 'R', 'C', 'H', '6', '4', '_', 'O', 'E', '_', 'L', 'I', 'N', 'U', 'X', '_', 'G', 'N', 'U'], ['a', 'a', 'r', 'c', 'h', '6', '4', '-', 'o', 'e', '-', 'l', 'i', 'n', 'u', 'x', '-', 'g', 'n', 'u']),
  (['A', 'A', 'R', 'C', 'H', '6', '4', '_', 'P', 'C', '_', 'W', 'I', 'N', 'D', 'O', 'W', 'S', '_', 'G', 'N', 'U', 'L', 'L', 'V', 'M'], ['a', 'a', 'r', 'c', 'h', '6', '4', '-', 'p', 'c', '-', 'w', 'i', 'n', 'd', 'o', 'w', 's', '-', 'g', 'n', 'u', 'l', 'l', 'v', 'm']),
  (['A', 'A', 'R', 'C', 'H', '6', '4', '_', 'P', 'C', '_', 'W', 'I', 'N', 'D', 'O', 'W', 'S', '_', 'M', 'S', 'V', 'C'], ['a', 'a', 'r', 'c', 'h', '6', '4', '-', 'p', 'c', '-', 'w', 'i', 'n', 'd', 'o', 'w', 's', '-', 'm', 's', 'v', 'c']),
  (['A', 'A', 'R', 'C', 'H', '6', '4', '_', 'U', 'N', 'K', 'N', 'O', 'W', 'N', '_', 'F', 'R', 'E', 'E', 'B', 'S', 'D'], ['a', 'a', 'r', 'c', 'h', '6', '4', '-', 'u', 'n', 'k', 'n', 'o', 'w', 'n', '-', 'f', 'r', 'e', 'e', 'b', 's', 'd']),
  (['A', 'A', 'R', 'C', 'H', '6', '4', '_', 'U', 'N', 'K', 'N', 'O', 'W', 'N', '_', 'F', 'U', 'C', 'H', 'S', 'I', 'A'], ['a', 'a', 'r', 'c', 'h', '6', '4', '-', 'u', 'n', 'k', 'n', 'o', 'w', 'n', '-', 'f', 'u', 'c', 'h', 's', 'i', 'a']),
  (['A', 'A', 'R', 'C', 'H', '6', '4', '_', 'U', 'N', 'K', 'N', 'O', 'W', 'N', '_', 'H', 'E', 'L', 'E', 'N', 'O', 'S'], ['a', 'a', 'r', 'c', 'h', '6', '4', '-', 'u', 'n', 'k', 'n', 'o', 'w', 'n', '-', 'h', 'e', 'l', 'e', 'n', 'o', 's']),
  (['A', 'A', 'R', 'C', 'H', '6', '4', '_', 'U', 'N', 'K', 'N', 'O', 'W', 'N', '_', 'H', 'E', 'R', 'M', 'I', 'T'], ['a', 'a', 'r', 'c', 'h', '6', '4', '-', 'u', 'n', 'k', 'n', 'o', 'w', 'n', '-', 'h', 'e', 'r', 'm', 'i', 't']),
  (['A', 'A', 'R', 'C', 'H', '6', '4', '_', 'U', 'N', 'K', 'N', 'O', 'W', 'N', '_', 'I', 'L', 'L', 'U', 'M', 'O', 'S'], ['a', 'a', 'r', 'c', 'h', '6', '4', '-', 'u', 'n', 'k', 'n', 'o', 'w', 'n', '-', 'i', 'l', 'l', 'u', 'm', 'o', 's']),
  (['A', 'A', 'R', 'C', 'H', '6', '4', '_', 'U', 'N', 'K', 'N', 'O', 'W', 'N', '_', 'L', '4', 'R', 'E', '_', 'U', 'C', 'L', 'I', 'B', 'C'], ['a', 'a', 'r', 'c', 'h', '6', '4', '-', 'u', 'n', 'k', 'n', 'o', 'w', 'n', '-', 'l', '4', 'r', 'e', '-', 'u', 'c', 'l', 'i', 'b', 'c']),
  (['A', 'A', 'R', 'C', 'H', '6', '4', '_', 'U', 'N', 'K', 'N', 'O', 'W', 'N', '_', 'L', 'I', 'N', 'U', 'X', '_', 'G', 'N', 'U'], ['a', 'a', 'r', 'c', 'h', '6', '4', '-', 'u', 'n', 'k', 'n', 'o', 'w', 'n', '-', 'l', 'i', 'n', 'u', 'x', '-', 'g', 'n', 'u']),
  (['A', 'A', 'R', 'C', 'H', '6', '4', '_', 'U', 'N', 'K', 'N', 'O', 'W', 'N', '_', 'L', 'I', 'N', 'U', 'X', '_', 'G', 'N', 'U', '_', 'I', 'L', 'P', '3', '2'], ['a', 'a', 'r', 'c', 'h', '6', '4', '-', 'u', 'n', 'k', 'n', 'o', 'w', 'n', '-', 'l', 'i', 'n', 'u', 'x', '-', 'g', 'n', 'u', '_', 'i', 'l', 'p', '3', '2']),
  (['A', 'A', 'R', 'C', 'H', '6', '4', '_', 'U', 'N', 'K', 'N', 'O', 'W', 'N', '_', 'L', 'I', 'N', 'U', 'X', '_', 'M', 'U', 'S', 'L'], ['a', 'a', 'r', 'c', 'h', '6', '4', '-', 'u', 'n', 'k', 'n', 'o', 'w', 'n', '-', 'l', 'i', 'n', 'u', 'x', '-', 'm', 'u', 's', 'l']),
  (['A', 'A', 'R', 'C', 'H', '6', '4', '_', 'U', 'N', 'K', 'N', 'O', 'W', 'N', '_', 'L', 'I', 'N', 'U', 'X', '_', 'O', 'H', 'O', 'S'], ['a', 'a', 'r', 'c', 'h', '6', '4', '-', 'u', 'n', 'k', 'n', 'o', 'w', 'n', '-', 'l', 'i', 'n', 'u', 'x', '-', 'o', 'h', 'o', 's']),
  (['A', 'A', 'R', 'C', 'H', '6', '4', '_', 'U', 'N', 'K', 'N', 'O', 'W', 'N', '_', 'L', 'I', 'N', 'U', 'X', '_', 'P', 'A', 'U', 'T', 'H', 'T', 'E', 'S', 'T'], ['a', 'a', 'r', 'c', 'h', '6', '4', '-', 'u', 'n', 'k', 'n', 'o', 'w', 'n', '-', 'l', 'i', 'n', 'u', 'x', '-', 'p', 'a', 'u', 't', 'h', 't', 'e', 's', 't']),
  (['A', 'A', 'R', 'C', 'H', '6', '4', '_', 'U', 'N', 'K', 'N', 'O', 'W', 'N', '_', 'M', 'A', 'N', 'A', 'G', 'A', 'R', 'M', '_', 'M', 'L', 'I', 'B', 'C'], ['a', 'a', 'r', 'c', 'h', '6', '4', '-', 'u', 'n', 'k', 'n', 'o', 'w', 'n', '-', 'm', 'a', 'n', 'a', 'g', 'a', 'r', 'm', '-', 'm', 'l', 'i', 'b', 'c']),
  (['A', 'A', 'R', 'C', 'H', '6', '4', '_', 'U', 'N', 'K', 'N', 'O', 'W', 'N', '_', 'N', 'E', 'T', 'B', 'S', 'D'], ['a', 'a', 'r', 'c', 'h', '6', '4', '-', 'u', 'n', 'k', 'n', 'o', 'w', 'n', '-', 'n', 'e', 't', 'b', 's', 'd']),
  (['A', 'A', 'R', 'C', 'H', '6', '4', '_', 'U', 'N', 'K', 'N', 'O', 'W', 'N', '_', 'N', 'O', 'N', 'E'], ['a', 'a', 'r', 'c', 'h', '6', '4', '-', 'u', 'n', 'k', 'n', 'o', 'w', 'n', '-', 'n', 'o', 'n', 'e']),
  (['A', 'A', 'R', 'C', 'H', '6', '4', '_', 'U', 'N', 'K', 'N', 'O', 'W', 'N', '_', 'N', 'O', 'N', 'E', '_', 'S', 'O', 'F', 'T', 'F', 'L', 'O', 'A', 'T'], ['a', 'a', 'r', 'c', 'h', '6', '4', '-', 'u', 'n', 'k', 'n', 'o', 'w', 'n', '-', 'n', 'o', 'n', 'e', '-', 's', 'o', 'f', 't', 'f', 'l', 'o', 'a', 't']),
  (['A', 'A', 'R', 'C', 'H', '6', '4', '_', 'U', 'N', 'K', 'N', 'O', 'W', 'N', '_', 'N', 'T', 'O', '_', 'Q', 'N', 'X', '7', '0', '0'], ['a', 'a', 'r', 'c', 'h', '6', '4', '-', 'u', 'n', 'k', 'n', 'o', 'w', 'n', '-', 'n', 't', 'o', '-', 'q', 'n', 'x', '7', '0', '0']),
  (['A', 'A', 'R', 'C', 'H', '6', '4', '_', 'U', 'N', 'K', 'N', 'O', 'W', 'N', '_', 'N', 'T', 'O', '_', 'Q', 'N', 'X', '7', '1', '0'], ['a', 'a', 'r', 'c', 'h', '6', '4', '-', 'u', 'n', 'k', 'n', 'o', 'w', 'n', '-', 'n', 't', 'o', '-', 'q', 'n', 'x', '7', '1', '0']),
  (['A', 'A', 'R', 'C', 'H', '6', '4', '_', 'U', 'N', 'K', 'N', 'O', 'W', 'N', '_', 'N', 'T', 'O', '_', 'Q', 'N', 'X', '7', '1', '0', '_', 'I', 'O', 'S', 'O', 'C', 'K'], ['a', 'a', 'r', 'c', 'h', '6', '4', '-', 'u', 'n', 'k', 'n', 'o', 'w', 'n', '-', 'n', 't', 'o', '-', 'q', 'n', 'x', '7', '1', '0', '_', 'i', 'o', 's', 'o', 'c', 'k']),
  (['A', 'A', 'R', 'C', 'H', '6', '4', '_', 'U', 'N', 'K', 'N', 'O', 'W', 'N', '_', 'N', 'U', 'T', 'T', 'X'], ['a', 'a', 'r', 'c', 'h', '6', '4', '-', 'u', 'n', 'k', 'n', 'o', 'w', 'n', '-', 'n', 'u', 't', 't', 'x']),
  (['A', 'A', 'R', 'C', 'H', '6', '4', '_', 'U', 'N', 'K', 'N', 'O', 'W', 'N', '_', 'O', 'P', 'E', 'N', 'B', 'S', 'D'], ['a', 'a', 'r', 'c', 'h', '6', '4', '-', 'u', 'n', 'k', 'n', 'o', 'w', 'n', '-', 'o', 'p', 'e', 'n', 'b', 's', 'd']),
  (['A', 'A', 'R', 'C', 'H', '6', '4', '_', 'U', 'N', 'K', 'N', 'O', 'W', 'N', '_', 'Q', 'N', 'X'], ['a', 'a', 'r', 'c', 'h', '6', '4', '-', 'u', 'n', 'k', 'n', 'o', 'w', 'n', '-', 'q', 'n', 'x']),
  (['A', 'A', 'R', 'C', 'H', '6', '4', '_', 'U', 'N', 'K', 'N', 'O', 'W', 'N', '_', 'R', 'E', 'D', 'O', 'X'], ['a', 'a', 'r', 'c', 'h', '6', '4', '-', 'u', 'n', 'k', 'n', 'o', 'w', 'n', '-', 'r', 'e', 'd', 'o', 'x']),
  (['A', 'A', 'R', 'C', 'H', '6', '4', '_', 'U', 'N', 'K', 'N', 'O', 'W', 'N', '_', 'T', 'E', 'E', 'O', 'S'], ['a', 'a', 'r', 'c', 'h', '6', '4', '-', 'u', 'n', 'k', 'n', 'o', 'w', 'n', '-', 't', 'e', 'e', 'o', 's']),
  (['A', 'A', 'R', 'C', 'H', '6', '4', '_', 'U', 'N', 'K', 'N', 'O', 'W', 'N', '_', 'T', 'R', 'U', 'S', 'T', 'Y'], ['a', 'a', 'r', 'c', 'h', '6', '4', '-', 'u', 'n', 'k', 'n', 'o', 'w', 'n', '-', 't', 'r', 'u', 's', 't', 'y']),
  (['A', 'A', 'R', 'C', 'H', '6', '4', '_', 'U', 'N', 'K', 'N', 'O', 'W', 'N', '_', 'U', 'E', 'F', 'I'], ['a', 'a', 'r', 'c', 'h', '6', '4', '-', 'u', 'n', 'k', 'n', 'o', 'w', 'n', '-', 'u', 'e', 'f', 'i']),
  (['A', 'A', 'R', 'C', 'H', '6', '4', '_', 'U', 'W', 'P', '_', 'W', 'I', 'N', 'D', 'O', 'W', 'S', '_', 'M', 'S', 'V', 'C'], ['a', 'a', 'r', 'c', 'h', '6', '4', '-', 'u', 'w', 'p', '-', 'w', 'i', 'n', 'd', 'o', 'w', 's', '-', 'm', 's', 'v', 'c']),
  (['A', 'A', 'R', 'C', 'H', '6', '4', '_', 'W', 'R', 'S', '_', 'V', 'X', 'W', 'O', 'R', 'K', 'S'], ['a', 'a', 'r', 'c', 'h', '6', '4', '-', 'w', 'r', 's', '-', 'v', 'x', 'w', 'o', 'r', 'k', 's']),
  (['A', 'A', 'R', 'C', 'H', '6', '4', '_', 'B', 'E', '_', 'U', 'N', 'K', 'N', 'O', 'W', 'N', '_', 'H', 'E', 'R', 'M', 'I', 'T'], ['a', 'a', 'r', 'c', 'h', '6', '4', '_', 'b', 'e', '-', 'u', 'n', 'k', 'n', 'o', 'w', 'n', '-', 'h', 'e', 'r', 'm', 'i', 't']),
  (['A', 'A', 'R', 'C', 'H', '6', '4', '_', 'B', 'E', '_', 'U', 'N', 'K', 'N', 'O', 'W', 'N', '_', 'L', 'I', 'N', 'U', 'X', '_', 'G', 'N', 'U'], ['a', 'a', 'r', 'c', 'h', '6', '4', '_', 'b', 'e', '-', 'u', 'n', 'k', 'n', 'o', 'w', 'n', '-', 'l', 'i', 'n', 'u', 'x', '-', 'g', 'n', 'u']),
  (['A', 'A', 'R', 'C', 'H', '6', '4', '_', 'B', 'E', '_', 'U', 'N', 'K', 'N', 'O', 'W', 'N', '_', 'L', 'I', 'N', 'U', 'X', '_', 'G', 'N', 'U', '_', 'I', 'L', 'P', '3', '2'], ['a', 'a', 'r', 'c', 'h', '6', '4', '_', 'b', 'e', '-', 'u', 'n', 'k', 'n', 'o', 'w', 'n', '-', 'l', 'i', 'n', 'u', 'x', '-', 'g', 'n', 'u', '_', 'i', 'l', 'p', '3', '2']),
  (['A', 'A', 'R', 'C', 'H', '6', '4', '_', 'B', 'E', '_', 'U', 'N', 'K', 'N', 'O', 'W', 'N', '_', 'L', 'I', 'N', 'U', 'X', '_', 'M', 'U', 'S', 'L'], ['a', 'a', 'r', 'c', 'h', '6', '4', '_', 'b', 'e', '-', 'u', 'n', 'k', 'n', 'o', 'w', 'n', '-', 'l', 'i', 'n', 'u', 'x', '-', 'm', 'u', 's', 'l']),
  (['A', 'A', 'R', 'C', 'H', '6', '4', '_', 'B', 'E', '_', 'U', 'N', 'K', 'N', 'O', 'W', 'N', '_', 'N', 'E', 'T', 'B', 'S', 'D'], ['a', 'a', 'r', 'c', 'h', '6', '4', '_', 'b', 'e', '-', 'u', 'n', 'k', 'n', 'o', 'w', 'n', '-', 'n', 'e', 't', 'b', 's', 'd']),
  (['A', 'A', 'R', 'C', 'H', '6', '4', '_', 'B', 'E', '_', 'U', 'N', 'K', 'N', 'O', 'W', 'N', '_', 'N', 'O', 'N', 'E', '_', 'S', 'O', 'F', 'T', 'F', 'L', 'O', 'A', 'T'], ['a', 'a', 'r', 'c', 'h', '6', '4', '_', 'b', 'e', '-', 'u', 'n', 'k', 'n', 'o', 'w', 'n', '-', 'n', 'o', 'n', 'e', '-', 's', 'o', 'f', 't', 'f', 'l', 'o', 'a', 't']),
  (['A', 'A', 'R', 'C', 'H', '6', '4', 'V', '8', 'R', '_', 'U', 'N', 'K', 'N', 'O', 'W', 'N', '_', 'N', 'O', 'N', 'E'], ['a', 'a', 'r', 'c', 'h', '6', '4', 'v', '8', 'r', '-', 'u', 'n', 'k', 'n', 'o', 'w', 'n', '-', 'n', 'o', 'n', 'e'])]

/-- `platforms.rs`: constants 50 to 99, and the triple of each. -/
def consts1 : List (Str × Str) := [
  (['A', 'A', 'R', 'C', 'H', '6', '4', 'V', '8', 'R', '_', 'U', 'N', 'K', 'N', 'O', 'W', 'N', '_', 'N', 'O', 'N', 'E', '_', 'S', 'O', 'F', 'T', 'F', 'L', 'O', 'A', 'T'], ['a', 'a', 'r', 'c', 'h', '6', '4', 'v', '8', 'r', '-', 'u', 'n', 'k', 'n', 'o', 'w', 'n', '-', 'n', 'o', 'n', 'e', '-', 's', 'o', 'f', 't', 'f', 'l', 'o', 'a', 't']),
  (['A', 'M', 'D', 'G', 'C', 'N', '_', 'A', 'M', 'D', '_', 'A', 'M', 'D', 'H', 'S', 'A'], ['a', 'm', 'd', 'g', 'c', 'n', '-', 'a', 'm', 'd', '-', 'a', 'm', 'd', 'h', 's', 'a']),
  (['A', 'R', 'M', '_', 'L', 'I', 'N', 'U', 'X', '_', 'A', 'N', 'D', 'R', 'O', 'I', 'D', 'E', 'A', 'B', 'I'], ['a', 'r', 'm', '-', 'l', 'i', 'n', 'u', 'x', '-', 'a', 'n', 'd', 'r', 'o', 'i', 'd', 'e', 'a', 'b', 'i']),
  (['A', 'R', 'M', '_', 'U', 'N', 'K', 'N', 'O', 'W', 'N', '_', 'L', 'I', 'N', 'U', 'X', '_', 'G', 'N', 'U', 'E', 'A', 'B', 'I'], ['a', 'r', 'm', '-', 'u', 'n', 'k', 'n', 'o', 'w', 'n', '-', 'l', 'i', 'n', 'u', 'x', '-', 'g', 'n', 'u', 'e', 'a', 'b', 'i']),
  (['A', 'R', 'M', '_', 'U', 'N', 'K', 'N', 'O', 'W', 'N', '_', 'L', 'I', 'N', 'U', 'X', '_', 'G', 'N', 'U', 'E', 'A', 'B', 'I', 'H', 'F'], ['a', 'r', 'm', '-', 'u', 'n', 'k', 'n', 'o', 'w', 'n', '-', 'l', 'i', 'n', 'u', 'x', '-', 'g', 'n', 'u', 'e', 'a', 'b', 'i', 'h', 'f']),
  (['A', 'R', 'M', '_', 'U', 'N', 'K', 'N', 'O', 'W', 'N', '_', 'L', 'I', 'N', 'U', 'X', '_', 'M', 'U', 'S', 'L', 'E', 'A', 'B', 'I'], ['a', 'r', 'm', '-', 'u', 'n', 'k', 'n', 'o', 'w', 'n', '-', 'l', 'i', 'n', 'u', 'x', '-', 'm', 'u', 's', 'l', 'e', 'a', 'b', 'i']),
  (['A', 'R', 'M', '_', 'U', 'N', 'K', 'N', 'O', 'W', 'N', '_', 'L', 'I', 'N', 'U', 'X', '_', 'M', 'U', 'S', 'L', 'E', 'A', 'B', 'I', 'H', 'F'], ['a', 'r', 'm', '-', 'u', 'n', 'k', 'n', 'o', 'w', 'n', '-', 'l', 'i', 'n', 'u', 'x', '-', 'm', 'u', 's', 'l', 'e', 'a', 'b', 'i', 'h', 'f']),
  (['A', 'R', 'M', '6', '4', '_', '3', '2', '_', 'A', 'P', 'P', 'L', 'E', '_', 'W', 'A', 'T', 'C', 'H', 'O', 'S'], ['a', 'r', 'm', '6', '4', '_', '3', '2', '-', 'a', 'p', 'p', 'l', 'e', '-', 'w', 'a', 't', 'c', 'h', 'o', 's']),
  (['A', 'R', 'M', '6', '4', 'E', '_', 'A', 'P', 'P', 'L', 'E', '_', 'D', 'A', 'R', 'W', 'I', 'N'], ['a', 'r', 'm', '6', '4', 'e', '-', 'a', 'p', 'p', 'l', 'e', '-', 'd', 'a', 'r', 'w', 'i', 'n']),
  (['A', 'R', 'M', '6', '4', 'E', '_', 'A', 'P', 'P', 'L', 'E', '_', 'I', 'O', 'S'], ['a', 'r', 'm', '6', '4', 'e', '-', 'a', 'p', 'p', 'l', 'e', '-', 'i', 'o', 's']),
  (['A', 'R', 'M', '6', '4', 'E', '_', 'A', 'P', 'P', 'L', 'E', '_', 'T', 'V', 'O', 'S'], ['a', 'r', 'm', '6', '4', 'e', '-', 'a', 'p', 'p', 'l', 'e', '-', 't', 'v', 'o', 's']),
  (['A', 'R', 'M', '6', '4', 'E', 'C', '_', 'P', 'C', '_', 'W', 'I', 'N', 'D', 'O', 'W', 'S', '_', 'M', 'S', 'V', 'C'], ['a', 'r', 'm', '6', '4', 'e', 'c', '-', 'p', 'c', '-', 'w', 'i', 'n', 'd', 'o', 'w', 's', '-', 'm', 's', 'v', 'c']),
  (['A', 'R', 'M', 'E', 'B', '_', 'U', 'N', 'K', 'N', 'O', 'W', 'N', '_', 'L', 'I', 'N', 'U', 'X', '_', 'G', 'N', 'U', 'E', 'A', 'B', 'I'], ['a', 'r', 'm', 'e', 'b', '-', 'u', 'n', 'k', 'n', 'o', 'w', 'n', '-', 'l', 'i', 'n', 'u', 'x', '-', 'g', 'n', 'u', 'e', 'a', 'b', 'i']),
  (['A', 'R', 'M', 'E', 'B', 'V', '7', 'R', '_', 'N', 'O', 'N', 'E', '_', 'E', 'A', 'B', 'I'], ['a', 'r', 'm', 'e', 'b', 'v', '7', 'r', '-', 'n', 'o', 'n', 'e', '-', 'e', 'a', 'b', 'i']),
  (['A', 'R', 'M', 'E', 'B', 'V', '7', 'R', '_', 'N', 'O', 'N', 'E', '_', 'E', 'A', 'B', 'I', 'H', 'F'], ['a', 'r', 'm', 'e', 'b', 'v', '7', 'r', '-', 'n', 'o', 'n', 'e', '-', 'e', 'a', 'b', 'i', 'h', 'f']),
  (['A', 'R', 'M', 'V', '4', 'T', '_', 'N', 'O', 'N', 'E', '_', 'E', 'A', 'B', 'I'], ['a', 'r', 'm', 'v', '4', 't', '-', 'n', 'o', 'n', 'e', '-', 'e', 'a', 'b', 'i']),
  (['A', 'R', 'M', 'V', '4', 'T', '_', 'U', 'N', 'K', 'N', 'O', 'W', 'N', '_', 'L', 'I', 'N', 'U', 'X', '_', 'G', 'N', 'U', 'E', 'A', 'B', 'I'], ['a', 'r', 'm', 'v', '4', 't', '-', 'u', 'n', 'k', 'n', 'o', 'w', 'n', '-', 'l', 'i', 'n', 'u', 'x', '-', 'g', 'n', 'u', 'e', 'a', 'b', 'i']),
  (['A', 'R', 'M', 'V', '5', 'T', 'E', '_', 'N', 'O', 'N', 'E', '_', 'E', 'A', 'B', 'I'], ['a', 'r', 'm', 'v', '5', 't', 'e', '-', 'n', 'o', 'n', 'e', '-', 'e', 'a', 'b', 'i']),
  (['A', 'R', 'M', 'V', '5', 'T', 'E', '_', 'U', 'N', 'K', 'N', 'O', 'W', 'N', '_', 'L', 'I', 'N', 'U', 'X', '_', 'G', 'N', 'U', 'E', 'A', 'B', 'I'], ['a', 'r', 'm', 'v', '5', 't', 'e', '-', 'u', 'n', 'k', 'n', 'o', 'w', 'n', '-', 'l', 'i', 'n', 'u', 'x', '-', 'g', 'n', 'u', 'e', 'a', 'b', 'i']),
  (['A', 'R', 'M', 'V', '5', 'T', 'E', '_', 'U', 'N', 'K', 'N', 'O', 'W', 'N', '_', 'L', 'I', 'N', 'U', 'X', '_', 'M', 'U', 'S', 'L', 'E', 'A', 'B', 'I'], ['a', 'r', 'm', 'v', '5', 't', 'e', '-', 'u', 'n', 'k', 'n', 'o', 'w', 'n', '-', 'l', 'i', 'n', 'u', 'x', '-', 'm', 'u', 's', 'l', 'e', 'a', 'b', 'i']),
  (['A', 'R', 'M', 'V', '5', 'T', 'E', '_', 'U', 'N', 'K', 'N', 'O', 'W', 'N', '_', 'L', 'I', 'N', 'U', 'X', '_', 'U', 'C', 'L', 'I', 'B', 'C', 'E', 'A', 'B', 'I'], ['a', 'r', 'm', 'v', '5', 't', 'e', '-', 'u', 'n', 'k', 'n', 'o', 'w', 'n', '-', 'l', 'i', 'n', 'u', 'x', '-', 'u', 'c', 'l', 'i', 'b', 'c', 'e', 'a', 'b', 'i']),
  (['A', 'R', 'M', 'V', '6', '_', 'N', 'O', 'N', 'E', '_', 'E', 'A', 'B', 'I'], ['a', 'r', 'm', 'v', '6', '-', 'n', 'o', 'n', 'e', '-', 'e', 'a', 'b', 'i']),
  (['A', 'R', 'M', 'V', '6', '_', 'N', 'O', 'N', 'E', '_', 'E', 'A', 'B', 'I', 'H', 'F'], ['a', 'r', 'm', 'v', '6', '-', 'n', 'o', 'n', 'e', '-', 'e', 'a', 'b', 'i', 'h', 'f']),
  (['A', 'R', 'M', 'V', '6', '_', 'U', 'N', 'K', 'N', 'O', 'W', 'N', '_', 'F', 'R', 'E', 'E', 'B', 'S', 'D'], ['a', 'r', 'm', 'v', '6', '-', 'u', 'n', 'k', 'n', 'o', 'w', 'n', '-', 'f', 'r', 'e', 'e', 'b', 's', 'd']),
  (['A', 'R', 'M', 'V', '6', '_', 'U', 'N', 'K', 'N', 'O', 'W', 'N', '_', 'N', 'E', 'T', 'B', 'S', 'D', '_', 'E', 'A', 'B', 'I', 'H', 'F'], ['a', 'r', 'm', 'v', '6', '-', 'u', 'n', 'k', 'n', 'o', 'w', 'n', '-', 'n', 'e', 't', 'b', 's', 'd', '-', 'e', 'a', 'b', 'i', 'h', 'f']),
  (['A', 'R', 'M', 'V', '6', 'K', '_', 'N', 'I', 'N', 'T', 'E', 'N', 'D', 'O', '_', '3', 'D', 'S'], ['a', 'r', 'm', 'v', '6', 'k', '-', 'n', 'i', 'n', 't', 'e', 'n', 'd', 'o', '-', '3', 'd', 's']),
  (['A', 'R', 'M', 'V', '7', '_', 'L', 'I', 'N', 'U', 'X', '_', 'A', 'N', 'D', 'R', 'O', 'I', 'D', 'E', 'A', 'B', 'I'], ['a', 'r', 'm', 'v', '7', '-', 'l', 'i', 'n', 'u', 'x', '-', 'a', 'n', 'd', 'r', 'o', 'i', 'd', 'e', 'a', 'b', 'i']),
  (['A', 'R', 'M', 'V', '7', '_', 'O', 'E', '_', 'L', 'I', 'N', 'U', 'X', '_', 'G', 'N', 'U', 'E', 'A', 'B', 'I', 'H', 'F'], ['a', 'r', 'm', 'v', '7', '-', 'o', 'e', '-', 'l', 'i', 'n', 'u', 'x', '-', 'g', 'n', 'u', 'e', 'a', 'b', 'i', 'h', 'f']),
  (['A', 'R', 'M', 'V', '7', '_', 'R', 'T', 'E', 'M', 'S', '_', 'E', 'A', 'B', 'I', 'H', 'F'], ['a', 'r', 'm', 'v', '7', '-', 'r', 't', 'e', 'm', 's', '-', 'e', 'a', 'b', 'i', 'h', 'f']),
  (['A', 'R', 'M', 'V', '7', '_', 'S', 'O', 'N', 'Y', '_', 'V', 'I', 'T', 'A', '_', 'N', 'E', 'W', 'L', 'I', 'B', 'E', 'A', 'B', 'I', 'H', 'F'], ['a', 'r', 'm', 'v', '7', '-', 's', 'o', 'n', 'y', '-', 'v', 'i', 't', 'a', '-', 'n', 'e', 'w', 'l', 'i', 'b', 'e', 'a', 'b', 'i', 'h', 'f']),
  (['A', 'R', 'M', 'V', '7', '_', 'U', 'N', 'K', 'N', 'O', 'W', 'N', '_', 'F', 'R', 'E', 'E', 'B', 'S', 'D'], ['a', 'r', 'm', 'v', '7', '-', 'u', 'n', 'k', 'n', 'o', 'w', 'n', '-', 'f', 'r', 'e', 'e', 'b', 's', 'd']),
  (['A', 'R', 'M', 'V', '7', '_', 'U', 'N', 'K', 'N', 'O', 'W', 'N', '_', 'L', 'I', 'N', 'U', 'X', '_', 'G', 'N', 'U', 'E', 'A', 'B', 'I'], ['a', 'r', 'm', 'v', '7', '-', 'u', 'n', 'k', 'n', 'o', 'w', 'n', '-', 'l', 'i', 'n', 'u', 'x', '-', 'g', 'n', 'u', 'e', 'a', 'b', 'i']),
  (['A', 'R', 'M', 'V', '7', '_', 'U', 'N', 'K', 'N', 'O', 'W', 'N', '_', 'L', 'I', 'N', 'U', 'X', '_', 'G', 'N', 'U', 'E', 'A', 'B', 'I', 'H', 'F'], ['a', 'r', 'm', 'v', '7', '-', 'u', 'n', 'k', 'n', 'o', 'w', 'n', '-', 'l', 'i', 'n', 'u', 'x', '-', 'g', 'n', 'u', 'e', 'a', 'b', 'i', 'h', 'f']),
  (['A', 'R', 'M', 'V', '7', '_', 'U', 'N', 'K', 'N', 'O', 'W', 'N', '_', 'L', 'I', 'N', 'U', 'X', '_', 'M', 'U', 'S', 'L', 'E', 'A', 'B', 'I'], ['a', 'r', 'm', 'v', '7', '-', 'u', 'n', 'k', 'n', 'o', 'w', 'n', '-', 'l', 'i', 'n', 'u', 'x', '-', 'm', 'u', 's', 'l', 'e', 'a', 'b', 'i']),
  (['A', 'R', 'M', 'V', '7', '_', 'U', 'N', 'K', 'N', 'O', 'W', 'N', '_', 'L', 'I', 'N', 'U', 'X', '_', 'M', 'U', 'S', 'L', 'E', 'A', 'B', 'I', 'H', 'F'], ['a', 'r', 'm', 'v', '7', '-', 'u', 'n', 'k', 'n', 'o', 'w', 'n', '-', 'l', 'i', 'n', 'u', 'x', '-', 'm', 'u', 's', 'l', 'e', 'a', 'b', 'i', 'h', 'f']),
  (['A', 'R', 'M', 'V', '7', '_', 'U', 'N', 'K', 'N', 'O', 'W', 'N', '_', 'L', 'I', 'N', 'U', 'X', '_', 'O', 'H', 'O', 'S'], ['a', 'r', 'm', 'v', '7', '-', 'u', 'n', 'k', 'n', 'o', 'w', 'n', '-', 'l', 'i', 'n', 'u', 'x', '-', 'o', 'h', 'o', 's']),
  (['A', 'R', 'M', 'V', '7', '_', 'U', 'N', 'K', 'N', 'O', 'W', 'N', '_', 'L', 'I', 'N', 'U', 'X', '_', 'U', 'C', 'L', 'I', 'B', 'C', 'E', 'A', 'B', 'I'], ['a', 'r', 'm', 'v', '7', '-', 'u', 'n', 'k', 'n', 'o', 'w', 'n', '-', 'l', 'i', 'n', 'u', 'x', '-', 'u', 'c', 'l', 'i', 'b', 'c', 'e', 'a', 'b', 'i']),
  (['A', 'R', 'M', 'V', '7', '_', 'U', 'N', 'K', 'N', 'O', 'W', 'N', '_', 'L', 'I', 'N', 'U', 'X', '_', 'U', 'C', 'L', 'I', 'B', 'C', 'E', 'A', 'B', 'I', 'H', 'F'], ['a', 'r', 'm', 'v', '7', '-', 'u', 'n', 'k', 'n', 'o', 'w', 'n', '-', 'l', 'i', 'n', 'u', 'x', '-', 'u', 'c', 'l', 'i', 'b', 'c', 'e', 'a', 'b', 'i', 'h', 'f']),
  (['A', 'R', 'M', 'V', '7', '_', 'U', 'N', 'K', 'N', 'O', 'W', 'N', '_', 'N', 'E', 'T', 'B', 'S', 'D', '_', 'E', 'A', 'B', 'I', 'H', 'F'], ['a', 'r', 'm', 'v', '7', '-', 'u', 'n', 'k', 'n', 'o', 'w', 'n', '-', 'n', 'e', 't', 'b', 's', 'd', '-', 'e', 'a', 'b', 'i', 'h', 'f']),
  (['A', 'R', 'M', 'V', '7', '_', 'U', 'N', 'K', 'N', 'O', 'W', 'N', '_', 'T', 'R', 'U', 'S', 'T', 'Y'], ['a', 'r', 'm', 'v', '7', '-', 'u', 'n', 'k', 'n', 'o', 'w', 'n', '-', 't', 'r', 'u', 's', 't', 'y']),
  (['A', 'R', 'M', 'V', '7', '_', 'W', 'R', 'S', '_', 'V', 'X', 'W', 'O', 'R', 'K', 'S', '_', 'E', 'A', 'B', 'I', 'H', 'F'], ['a', 'r', 'm', 'v', '7', '-', 'w', 'r', 's', '-', 'v', 'x', 'w', 'o', 'r', 'k', 's', '-', 'e', 'a', 'b', 'i', 'h', 'f']),
  (['A', 'R', 'M', 'V', '7', 'A', '_', 'K', 'M', 'C', '_', 'S', 'O', 'L', 'I', 'D', '_', 'A', 'S', 'P', '3', '_', 'E', 'A', 'B', 'I'], ['a', 'r', 'm', 'v', '7', 'a', '-', 'k', 'm', 'c', '-', 's', 'o', 'l', 'i', 'd', '_', 'a', 's', 'p', '3', '-', 'e', 'a', 'b', 'i']),
  (['A', 'R', 'M', 'V', '7', 'A', '_', 'K', 'M', 'C', '_', 'S', 'O', 'L', 'I', 'D', '_', 'A', 'S', 'P', '3', '_', 'E', 'A', 'B', 'I', 'H', 'F'], ['a', 'r', 'm', 'v', '7', 'a', '-', 'k', 'm', 'c', '-', 's', 'o', 'l', 'i', 'd', '_', 'a', 's', 'p', '3', '-', 'e', 'a', 'b', 'i', 'h', 'f']),
  (['A', 'R', 'M', 'V', '7', 'A', '_', 'N', 'O', 'N', 'E', '_', 'E', 'A', 'B', 'I'], ['a', 'r', 'm', 'v', '7', 'a', '-', 'n', 'o', 'n', 'e', '-', 'e', 'a', 'b', 'i']),
  (['A', 'R', 'M', 'V', '7', 'A', '_', 'N', 'O', 'N', 'E', '_', 'E', 'A', 'B', 'I', 'H', 'F'], ['a', 'r', 'm', 'v', '7', 'a', '-', 'n', 'o', 'n', 'e', '-', 'e', 'a', 'b', 'i', 'h', 'f']),
  (['A', 'R', 'M', 'V', '7', 'A', '_', 'N', 'U', 'T', 'T', 'X', '_', 'E', 'A', 'B', 'I'], ['a', 'r', 'm', 'v', '7', 'a', '-', 'n', 'u', 't', 't', 'x', '-', 'e', 'a', 'b', 'i']),
  (['A', 'R', 'M', 'V', '7', 'A', '_', 'N', 'U', 'T', 'T', 'X', '_', 'E', 'A', 'B', 'I', 'H', 'F'], ['a', 'r', 'm', 'v', '7', 'a', '-', 'n', 'u', 't', 't', 'x', '-', 'e', 'a', 'b', 'i', 'h', 'f']),
  (['A', 'R', 'M', 'V', '7', 'K', '_', 'A', 'P', 'P', 'L', 'E', '_', 'W', 'A', 'T', 'C', 'H', 'O', 'S'], ['a', 'r', 'm', 'v', '7', 'k', '-', 'a', 'p', 'p', 'l', 'e', '-', 'w', 'a', 't', 'c', 'h', 'o', 's']),
  (['A', 'R', 'M', 'V', '7', 'R', '_', 'N', 'O', 'N', 'E', '_', 'E', 'A', 'B', 'I'], ['a', 'r', 'm', 'v', '7', 'r', '-', 'n', 'o', 'n', 'e', '-', 'e', 'a', 'b', 'i']),
  (['A', 'R', 'M', 'V', '7', 'R', '_', 'N', 'O', 'N', 'E', '_', 'E', 'A', 'B', 'I', 'H', 'F'], ['a', 'r', 'm', 'v', '7', 'r', '-', 'n', 'o', 'n', 'e', '-', 'e', 'a', 'b', 'i', 'h', 'f'])]

/-- `platforms.rs`: constants 100 to 149, and the triple of each. -/
def consts2 : List (Str × Str) := [
  (['A', 'R', 'M', 'V', '7', 'S', '_', 'A', 'P', 'P', 'L', 'E', '_', 'I', 'O', 'S'], ['a', 'r', 'm', 'v', '7', 's', '-', 'a', 'p', 'p', 'l', 'e', '-', 'i', 'o', 's']),
  (['A', 'R', 'M', 'V', '8', 'R', '_', 'N', 'O', 'N', 'E', '_', 'E', 'A', 'B', 'I', 'H', 'F'], ['a', 'r', 'm', 'v', '8', 'r', '-', 'n', 'o', 'n', 'e', '-', 'e', 'a', 'b', 'i', 'h', 'f']),
  (['A', 'V', 'R', '_', 'N', 'O', 'N', 'E'], ['a', 'v', 'r', '-', 'n', 'o', 'n', 'e']),
  (['B', 'P', 'F', 'E', 'B', '_', 'U', 'N', 'K', 'N', 'O', 'W', 'N', '_', 'N', 'O', 'N', 'E'], ['b', 'p', 'f', 'e', 'b', '-', 'u', 'n', 'k', 'n', 'o', 'w', 'n', '-', 'n', 'o', 'n', 'e']),
  (['B', 'P', 'F', 'E', 'L', '_', 'U', 'N', 'K', 'N', 'O', 'W', 'N', '_', 'N', 'O', 'N', 'E'], ['b', 'p', 'f', 'e', 'l', '-', 'u', 'n', 'k', 'n', 'o', 'w', 'n', '-', 'n', 'o', 'n', 'e']),
  (['C', 'S', 'K', 'Y', '_', 'U', 'N', 'K', 'N', 'O', 'W', 'N', '_', 'L', 'I', 'N', 'U', 'X', '_', 'G', 'N', 'U', 'A', 'B', 'I', 'V', '2'], ['c', 's', 'k', 'y', '-', 'u', 'n', 'k', 'n', 'o', 'w', 'n', '-', 'l', 'i', 'n', 'u', 'x', '-', 'g', 'n', 'u', 'a', 'b', 'i', 'v', '2']),
  (['C', 'S', 'K', 'Y', '_', 'U', 'N', 'K', 'N', 'O', 'W', 'N', '_', 'L', 'I', 'N', 'U', 'X', '_', 'G', 'N', 'U', 'A', 'B', 'I', 'V', '2', 'H', 'F'], ['c', 's', 'k', 'y', '-', 'u', 'n', 'k', 'n', 'o', 'w', 'n', '-', 'l', 'i', 'n', 'u', 'x', '-', 'g', 'n', 'u', 'a', 'b', 'i', 'v', '2', 'h', 'f']),
  (['H', 'E', 'X', 'A', 'G', 'O', 'N', '_', 'U', 'N', 'K', 'N', 'O', 'W', 'N', '_', 'L', 'I', 'N', 'U', 'X', '_', 'M', 'U', 'S', 'L'], ['h', 'e', 'x', 'a', 'g', 'o', 'n', '-', 'u', 'n', 'k', 'n', 'o', 'w', 'n', '-', 'l', 'i', 'n', 'u', 'x', '-', 'm', 'u', 's', 'l']),
  (['H', 'E', 'X', 'A', 'G', 'O', 'N', '_', 'U', 'N', 'K', 'N', 'O', 'W', 'N', '_', 'N', 'O', 'N', 'E', '_', 'E', 'L', 'F'], ['h', 'e', 'x', 'a', 'g', 'o', 'n', '-', 'u', 'n', 'k', 'n', 'o', 'w', 'n', '-', 'n', 'o', 'n', 'e', '-', 'e', 'l', 'f']),
  (['H', 'E', 'X', 'A', 'G', 'O', 'N', '_', 'U', 'N', 'K', 'N', 'O', 'W', 'N', '_', 'Q', 'U', 'R', 'T'], ['h', 'e', 'x', 'a', 'g', 'o', 'n', '-', 'u', 'n', 'k', 'n', 'o', 'w', 'n', '-', 'q', 'u', 'r', 't']),
  (['I', '3', '8', '6', '_', 'A', 'P', 'P', 'L', 'E', '_', 'I', 'O', 'S'], ['i', '3', '8', '6', '-', 'a', 'p', 'p', 'l', 'e', '-', 'i', 'o', 's']),
  (['I', '5', '8', '6', '_', 'U', 'N', 'K', 'N', 'O', 'W', 'N', '_', 'L', 'I', 'N', 'U', 'X', '_', 'G', 'N', 'U'], ['i', '5', '8', '6', '-', 'u', 'n', 'k', 'n', 'o', 'w', 'n', '-', 'l', 'i', 'n', 'u', 'x', '-', 'g', 'n', 'u']),
  (['I', '5', '8', '6', '_', 'U', 'N', 'K', 'N', 'O', 'W', 'N', '_', 'L', 'I', 'N', 'U', 'X', '_', 'M', 'U', 'S', 'L'], ['i', '5', '8', '6', '-', 'u', 'n', 'k', 'n', 'o', 'w', 'n', '-', 'l', 'i', 'n', 'u', 'x', '-', 'm', 'u', 's', 'l']),
  (['I', '5', '8', '6', '_', 'U', 'N', 'K', 'N', 'O', 'W', 'N', '_', 'N', 'E', 'T', 'B', 'S', 'D'], ['i', '5', '8', '6', '-', 'u', 'n', 'k', 'n', 'o', 'w', 'n', '-', 'n', 'e', 't', 'b', 's', 'd']),
  (['I', '5', '8', '6', '_', 'U', 'N', 'K', 'N', 'O', 'W', 'N', '_', 'R', 'E', 'D', 'O', 'X'], ['i', '5', '8', '6', '-', 'u', 'n', 'k', 'n', 'o', 'w', 'n', '-', 'r', 'e', 'd', 'o', 'x']),
  (['I', '6', '8', '6', '_', 'A', 'P', 'P', 'L', 'E', '_', 'D', 'A', 'R', 'W', 'I', 'N'], ['i', '6', '8', '6', '-', 'a', 'p', 'p', 'l', 'e', '-', 'd', 'a', 'r', 'w', 'i', 'n']),
  (['I', '6', '8', '6', '_', 'L', 'I', 'N', 'U', 'X', '_', 'A', 'N', 'D', 'R', 'O', 'I', 'D'], ['i', '6', '8', '6', '-', 'l', 'i', 'n', 'u', 'x', '-', 'a', 'n', 'd', 'r', 'o', 'i', 'd']),
  (['I', '6', '8', '6', '_', 'O', 'E', '_', 'L', 'I', 'N', 'U', 'X', '_', 'G', 'N', 'U'], ['i', '6', '8', '6', '-', 'o', 'e', '-', 'l', 'i', 'n', 'u', 'x', '-', 'g', 'n', 'u']),
  (['I', '6', '8', '6', '_', 'P', 'C', '_', 'N', 'T', 'O', '_', 'Q', 'N', 'X', '7', '0', '0'], ['i', '6', '8', '6', '-', 'p', 'c', '-', 'n', 't', 'o', '-', 'q', 'n', 'x', '7', '0', '0']),
  (['I', '6', '8', '6', '_', 'P', 'C', '_', 'W', 'I', 'N', 'D', 'O', 'W', 'S', '_', 'G', 'N', 'U'], ['i', '6', '8', '6', '-', 'p', 'c', '-', 'w', 'i', 'n', 'd', 'o', 'w', 's', '-', 'g', 'n', 'u']),
  (['I', '6', '8', '6', '_', 'P', 'C', '_', 'W', 'I', 'N', 'D', 'O', 'W', 'S', '_', 'G', 'N', 'U', 'L', 'L', 'V', 'M'], ['i', '6', '8', '6', '-', 'p', 'c', '-', 'w', 'i', 'n', 'd', 'o', 'w', 's', '-', 'g', 'n', 'u', 'l', 'l', 'v', 'm']),
  (['I', '6', '8', '6', '_', 'P', 'C', '_', 'W', 'I', 'N', 'D', 'O', 'W', 'S', '_', 'M', 'S', 'V', 'C'], ['i', '6', '8', '6', '-', 'p', 'c', '-', 'w', 'i', 'n', 'd', 'o', 'w', 's', '-', 'm', 's', 'v', 'c']),
  (['I', '6', '8', '6', '_', 'U', 'N', 'K', 'N', 'O', 'W', 'N', '_', 'F', 'R', 'E', 'E', 'B', 'S', 'D'], ['i', '6', '8', '6', '-', 'u', 'n', 'k', 'n', 'o', 'w', 'n', '-', 'f', 'r', 'e', 'e', 'b', 's', 'd']),
  (['I', '6', '8', '6', '_', 'U', 'N', 'K', 'N', 'O', 'W', 'N', '_', 'H', 'A', 'I', 'K', 'U'], ['i', '6', '8', '6', '-', 'u', 'n', 'k', 'n', 'o', 'w', 'n', '-', 'h', 'a', 'i', 'k', 'u']),
  (['I', '6', '8', '6', '_', 'U', 'N', 'K', 'N', 'O', 'W', 'N', '_', 'H', 'E', 'L', 'E', 'N', 'O', 'S'], ['i', '6', '8', '6', '-', 'u', 'n', 'k', 'n', 'o', 'w', 'n', '-', 'h', 'e', 'l', 'e', 'n', 'o', 's']),
  (['I', '6', '8', '6', '_', 'U', 'N', 'K', 'N', 'O', 'W', 'N', '_', 'H', 'U', 'R', 'D', '_', 'G', 'N', 'U'], ['i', '6', '8', '6', '-', 'u', 'n', 'k', 'n', 'o', 'w', 'n', '-', 'h', 'u', 'r', 'd', '-', 'g', 'n', 'u']),
  (['I', '6', '8', '6', '_', 'U', 'N', 'K', 'N', 'O', 'W', 'N', '_', 'L', 'I', 'N', 'U', 'X', '_', 'G', 'N', 'U'], ['i', '6', '8', '6', '-', 'u', 'n', 'k', 'n', 'o', 'w', 'n', '-', 'l', 'i', 'n', 'u', 'x', '-', 'g', 'n', 'u']),
  (['I', '6', '8', '6', '_', 'U', 'N', 'K', 'N', 'O', 'W', 'N', '_', 'L', 'I', 'N', 'U', 'X', '_', 'M', 'U', 'S', 'L'], ['i', '6', '8', '6', '-', 'u', 'n', 'k', 'n', 'o', 'w', 'n', '-', 'l', 'i', 'n', 'u', 'x', '-', 'm', 'u', 's', 'l']),
  (['I', '6', '8', '6', '_', 'U', 'N', 'K', 'N', 'O', 'W', 'N', '_', 'N', 'E', 'T', 'B', 'S', 'D'], ['i', '6', '8', '6', '-', 'u', 'n', 'k', 'n', 'o', 'w', 'n', '-', 'n', 'e', 't', 'b', 's', 'd']),
  (['I', '6', '8', '6', '_', 'U', 'N', 'K', 'N', 'O', 'W', 'N', '_', 'O', 'P', 'E', 'N', 'B', 'S', 'D'], ['i', '6', '8', '6', '-', 'u', 'n', 'k', 'n', 'o', 'w', 'n', '-', 'o', 'p', 'e', 'n', 'b', 's', 'd']),
  (['I', '6', '8', '6', '_', 'U', 'N', 'K', 'N', 'O', 'W', 'N', '_', 'U', 'E', 'F', 'I'], ['i', '6', '8', '6', '-', 'u', 'n', 'k', 'n', 'o', 'w', 'n', '-', 'u', 'e', 'f', 'i']),
  (['I', '6', '8', '6', '_', 'U', 'W', 'P', '_', 'W', 'I', 'N', 'D', 'O', 'W', 'S', '_', 'G', 'N', 'U'], ['i', '6', '8', '6', '-', 'u', 'w', 'p', '-', 'w', 'i', 'n', 'd', 'o', 'w', 's', '-', 'g', 'n', 'u']),
  (['I', '6', '8', '6', '_', 'U', 'W', 'P', '_', 'W', 'I', 'N', 'D', 'O', 'W', 'S', '_', 'M', 'S', 'V', 'C'], ['i', '6', '8', '6', '-', 'u', 'w', 'p', '-', 'w', 'i', 'n', 'd', 'o', 'w', 's', '-', 'm', 's', 'v', 'c']),
  (['I', '6', '8', '6', '_', 'W', 'I', 'N', '7', '_', 'W', 'I', 'N', 'D', 'O', 'W', 'S', '_', 'G', 'N', 'U'], ['i', '6', '8', '6', '-', 'w', 'i', 'n', '7', '-', 'w', 'i', 'n', 'd', 'o', 'w', 's', '-', 'g', 'n', 'u']),
  (['I', '6', '8', '6', '_', 'W', 'I', 'N', '7', '_', 'W', 'I', 'N', 'D', 'O', 'W', 'S', '_', 'M', 'S', 'V', 'C'], ['i', '6', '8', '6', '-', 'w', 'i', 'n', '7', '-', 'w', 'i', 'n', 'd', 'o', 'w', 's', '-', 'm', 's', 'v', 'c']),
  (['I', '6', '8', '6', '_', 'W', 'R', 'S', '_', 'V', 'X', 'W', 'O', 'R', 'K', 'S'], ['i', '6', '8', '6', '-', 'w', 'r', 's', '-', 'v', 'x', 'w', 'o', 'r', 'k', 's']),
  (['L', 'O', 'O', 'N', 'G', 'A', 'R', 'C', 'H', '3', '2', '_', 'U', 'N', 'K', 'N', 'O', 'W', 'N', '_', 'N', 'O', 'N', 'E'], ['l', 'o', 'o', 'n', 'g', 'a', 'r', 'c', 'h', '3', '2', '-', 'u', 'n', 'k', 'n', 'o', 'w', 'n', '-', 'n', 'o', 'n', 'e']),
  (['L', 'O', 'O', 'N', 'G', 'A', 'R', 'C', 'H', '3', '2', '_', 'U', 'N', 'K', 'N', 'O', 'W', 'N', '_', 'N', 'O', 'N', 'E', '_', 'S', 'O', 'F', 'T', 'F', 'L', 'O', 'A', 'T'], ['l', 'o', 'o', 'n', 'g', 'a', 'r', 'c', 'h', '3', '2', '-', 'u', 'n', 'k', 'n', 'o', 'w', 'n', '-', 'n', 'o', 'n', 'e', '-', 's', 'o', 'f', 't', 'f', 'l', 'o', 'a', 't']),
  (['L', 'O', 'O', 'N', 'G', 'A', 'R', 'C', 'H', '6', '4', '_', 'U', 'N', 'K', 'N', 'O', 'W', 'N', '_', 'L', 'I', 'N', 'U', 'X', '_', 'G', 'N', 'U'], ['l', 'o', 'o', 'n', 'g', 'a', 'r', 'c', 'h', '6', '4', '-', 'u', 'n', 'k', 'n', 'o', 'w', 'n', '-', 'l', 'i', 'n', 'u', 'x', '-', 'g', 'n', 'u']),
  (['L', 'O', 'O', 'N', 'G', 'A', 'R', 'C', 'H', '6', '4', '_', 'U', 'N', 'K', 'N', 'O', 'W', 'N', '_', 'L', 'I', 'N', 'U', 'X', '_', 'M', 'U', 'S', 'L'], ['l', 'o', 'o', 'n', 'g', 'a', 'r', 'c', 'h', '6', '4', '-', 'u', 'n', 'k', 'n', 'o', 'w', 'n', '-', 'l', 'i', 'n', 'u', 'x', '-', 'm', 'u', 's', 'l']),
  (['L', 'O', 'O', 'N', 'G', 'A', 'R', 'C', 'H', '6', '4', '_', 'U', 'N', 'K', 'N', 'O', 'W', 'N', '_', 'L', 'I', 'N', 'U', 'X', '_', 'O', 'H', 'O', 'S'], ['l', 'o', 'o', 'n', 'g', 'a', 'r', 'c', 'h', '6', '4', '-', 'u', 'n', 'k', 'n', 'o', 'w', 'n', '-', 'l', 'i', 'n', 'u', 'x', '-', 'o', 'h', 'o', 's']),
  (['L', 'O', 'O', 'N', 'G', 'A', 'R', 'C', 'H', '6', '4', '_', 'U', 'N', 'K', 'N', 'O', 'W', 'N', '_', 'N', 'O', 'N', 'E'], ['l', 'o', 'o', 'n', 'g', 'a', 'r', 'c', 'h', '6', '4', '-', 'u', 'n', 'k', 'n', 'o', 'w', 'n', '-', 'n', 'o', 'n', 'e']),
  (['L', 'O', 'O', 'N', 'G', 'A', 'R', 'C', 'H', '6', '4', '_', 'U', 'N', 'K', 'N', 'O', 'W', 'N', '_', 'N', 'O', 'N', 'E', '_', 'S', 'O', 'F', 'T', 'F', 'L', 'O', 'A', 'T'], ['l', 'o', 'o', 'n', 'g', 'a', 'r', 'c', 'h', '6', '4', '-', 'u', 'n', 'k', 'n', 'o', 'w', 'n', '-', 'n', 'o', 'n', 'e', '-', 's', 'o', 'f', 't', 'f', 'l', 'o', 'a', 't']),
  (['M', '6', '8', 'K', '_', 'U', 'N', 'K', 'N', 'O', 'W', 'N', '_', 'L', 'I', 'N', 'U', 'X', '_', 'G', 'N', 'U'], ['m', '6', '8', 'k', '-', 'u', 'n', 'k', 'n', 'o', 'w', 'n', '-', 'l', 'i', 'n', 'u', 'x', '-', 'g', 'n', 'u']),
  (['M', '6', '8', 'K', '_', 'U', 'N', 'K', 'N', 'O', 'W', 'N', '_', 'N', 'O', 'N', 'E', '_', 'E', 'L', 'F'], ['m', '6', '8', 'k', '-', 'u', 'n', 'k', 'n', 'o', 'w', 'n', '-', 'n', 'o', 'n', 'e', '-', 'e', 'l', 'f']),
  (['M', 'I', 'P', 'S', '_', 'M', 'T', 'I', '_', 'N', 'O', 'N', 'E', '_', 'E', 'L', 'F'], ['m', 'i', 'p', 's', '-', 'm', 't', 'i', '-', 'n', 'o', 'n', 'e', '-', 'e', 'l', 'f']),
  (['M', 'I', 'P', 'S', '_', 'U', 'N', 'K', 'N', 'O', 'W', 'N', '_', 'L', 'I', 'N', 'U', 'X', '_', 'G', 'N', 'U'], ['m', 'i', 'p', 's', '-', 'u', 'n', 'k', 'n', 'o', 'w', 'n', '-', 'l', 'i', 'n', 'u', 'x', '-', 'g', 'n', 'u']),
  (['M', 'I', 'P', 'S', '_', 'U', 'N', 'K', 'N', 'O', 'W', 'N', '_', 'L', 'I', 'N', 'U', 'X', '_', 'M', 'U', 'S', 'L'], ['m', 'i', 'p', 's', '-', 'u', 'n', 'k', 'n', 'o', 'w', 'n', '-', 'l', 'i', 'n', 'u', 'x', '-', 'm', 'u', 's', 'l']),
  (['M', 'I', 'P', 'S', '_', 'U', 'N', 'K', 'N', 'O', 'W', 'N', '_', 'L', 'I', 'N', 'U', 'X', '_', 'U', 'C', 'L', 'I', 'B', 'C'], ['m', 'i', 'p', 's', '-', 'u', 'n', 'k', 'n', 'o', 'w', 'n', '-', 'l', 'i', 'n', 'u', 'x', '-', 'u', 'c', 'l', 'i', 'b', 'c']),
  (['M', 'I', 'P', 'S', '6', '4', '_', 'O', 'P', 'E', 'N', 'W', 'R', 'T', '_', 'L', 'I', 'N', 'U', 'X', '_', 'M', 'U', 'S', 'L'], ['m', 'i', 'p', 's', '6', '4', '-', 'o', 'p', 'e', 'n', 'w', 'r', 't', '-', 'l', 'i', 'n', 'u', 'x', '-', 'm', 'u', 's', 'l'])]

/-- `platforms.rs`: constants 150 to 199, and the triple of each. -/
def consts3 : List (Str × Str) := [
  (['M', 'I', 'P', 'S', '6', '4', '_', 'U', 'N', 'K', 'N', 'O', 'W', 'N', '_', 'L', 'I', 'N', 'U', 'X', '_', 'G', 'N', 'U', 'A', 'B', 'I', '6', '4'], ['m', 'i', 'p', 's', '6', '4', '-', 'u', 'n', 'k', 'n', 'o', 'w', 'n', '-', 'l', 'i', 'n', 'u', 'x', '-', 'g', 'n', 'u', 'a', 'b', 'i', '6', '4']),
  (['M', 'I', 'P', 'S', '6', '4', '_', 'U', 'N', 'K', 'N', 'O', 'W', 'N', '_', 'L', 'I', 'N', 'U', 'X', '_', 'M', 'U', 'S', 'L', 'A', 'B', 'I', '6', '4'], ['m', 'i', 'p', 's', '6', '4', '-', 'u', 'n', 'k', 'n', 'o', 'w', 'n', '-', 'l', 'i', 'n', 'u', 'x', '-', 'm', 'u', 's', 'l', 'a', 'b', 'i', '6', '4']),
  (['M', 'I', 'P', 'S', '6', '4', 'E', 'L', '_', 'U', 'N', 'K', 'N', 'O', 'W', 'N', '_', 'L', 'I', 'N', 'U', 'X', '_', 'G', 'N', 'U', 'A', 'B', 'I', '6', '4'], ['m', 'i', 'p', 's', '6', '4', 'e', 'l', '-', 'u', 'n', 'k', 'n', 'o', 'w', 'n', '-', 'l', 'i', 'n', 'u', 'x', '-', 'g', 'n', 'u', 'a', 'b', 'i', '6', '4']),
  (['M', 'I', 'P', 'S', '6', '4', 'E', 'L', '_', 'U', 'N', 'K', 'N', 'O', 'W', 'N', '_', 'L', 'I', 'N', 'U', 'X', '_', 'M', 'U', 'S', 'L', 'A', 'B', 'I', '6', '4'], ['m', 'i', 'p', 's', '6', '4', 'e', 'l', '-', 'u', 'n', 'k', 'n', 'o', 'w', 'n', '-', 'l', 'i', 'n', 'u', 'x', '-', 'm', 'u', 's', 'l', 'a', 'b', 'i', '6', '4']),
  (['M', 'I', 'P', 'S', 'E', 'L', '_', 'M', 'T', 'I', '_', 'N', 'O', 'N', 'E', '_', 'E', 'L', 'F'], ['m', 'i', 'p', 's', 'e', 'l', '-', 'm', 't', 'i', '-', 'n', 'o', 'n', 'e', '-', 'e', 'l', 'f']),
  (['M', 'I', 'P', 'S', 'E', 'L', '_', 'S', 'O', 'N', 'Y', '_', 'P', 'S', 'P'], ['m', 'i', 'p', 's', 'e', 'l', '-', 's', 'o', 'n', 'y', '-', 'p', 's', 'p']),
  (['M', 'I', 'P', 'S', 'E', 'L', '_', 'S', 'O', 'N', 'Y', '_', 'P', 'S', 'X'], ['m', 'i', 'p', 's', 'e', 'l', '-', 's', 'o', 'n', 'y', '-', 'p', 's', 'x']),
  (['M', 'I', 'P', 'S', 'E', 'L', '_', 'U', 'N', 'K', 'N', 'O', 'W', 'N', '_', 'L', 'I', 'N', 'U', 'X', '_', 'G', 'N', 'U'], ['m', 'i', 'p', 's', 'e', 'l', '-', 'u', 'n', 'k', 'n', 'o', 'w', 'n', '-', 'l', 'i', 'n', 'u', 'x', '-', 'g', 'n', 'u']),
  (['M', 'I', 'P', 'S', 'E', 'L', '_', 'U', 'N', 'K', 'N', 'O', 'W', 'N', '_', 'L', 'I', 'N', 'U', 'X', '_', 'M', 'U', 'S', 'L'], ['m', 'i', 'p', 's', 'e', 'l', '-', 'u', 'n', 'k', 'n', 'o', 'w', 'n', '-', 'l', 'i', 'n', 'u', 'x', '-', 'm', 'u', 's', 'l']),
  (['M', 'I', 'P', 'S', 'E', 'L', '_', 'U', 'N', 'K', 'N', 'O', 'W', 'N', '_', 'L', 'I', 'N', 'U', 'X', '_', 'U', 'C', 'L', 'I', 'B', 'C'], ['m', 'i', 'p', 's', 'e', 'l', '-', 'u', 'n', 'k', 'n', 'o', 'w', 'n', '-', 'l', 'i', 'n', 'u', 'x', '-', 'u', 'c', 'l', 'i', 'b', 'c']),
  (['M', 'I', 'P', 'S', 'E', 'L', '_', 'U', 'N', 'K', 'N', 'O', 'W', 'N', '_', 'N', 'E', 'T', 'B', 'S', 'D'], ['m', 'i', 'p', 's', 'e', 'l', '-', 'u', 'n', 'k', 'n', 'o', 'w', 'n', '-', 'n', 'e', 't', 'b', 's', 'd']),
  (['M', 'I', 'P', 'S', 'E', 'L', '_', 'U', 'N', 'K', 'N', 'O', 'W', 'N', '_', 'N', 'O', 'N', 'E'], ['m', 'i', 'p', 's', 'e', 'l', '-', 'u', 'n', 'k', 'n', 'o', 'w', 'n', '-', 'n', 'o', 'n', 'e']),
  (['M', 'I', 'P', 'S', 'I', 'S', 'A', '3', '2', 'R', '6', '_', 'U', 'N', 'K', 'N', 'O', 'W', 'N', '_', 'L', 'I', 'N', 'U', 'X', '_', 'G', 'N', 'U'], ['m', 'i', 'p', 's', 'i', 's', 'a', '3', '2', 'r', '6', '-', 'u', 'n', 'k', 'n', 'o', 'w', 'n', '-', 'l', 'i', 'n', 'u', 'x', '-', 'g', 'n', 'u']),
  (['M', 'I', 'P', 'S', 'I', 'S', 'A', '3', '2', 'R', '6', 'E', 'L', '_', 'U', 'N', 'K', 'N', 'O', 'W', 'N', '_', 'L', 'I', 'N', 'U', 'X', '_', 'G', 'N', 'U'], ['m', 'i', 'p', 's', 'i', 's', 'a', '3', '2', 'r', '6', 'e', 'l', '-', 'u', 'n', 'k', 'n', 'o', 'w', 'n', '-', 'l', 'i', 'n', 'u', 'x', '-', 'g', 'n', 'u']),
  (['M', 'I', 'P', 'S', 'I', 'S', 'A', '6', '4', 'R', '6', '_', 'U', 'N', 'K', 'N', 'O', 'W', 'N', '_', 'L', 'I', 'N', 'U', 'X', '_', 'G', 'N', 'U', 'A', 'B', 'I', '6', '4'], ['m', 'i', 'p', 's', 'i', 's', 'a', '6', '4', 'r', '6', '-', 'u', 'n', 'k', 'n', 'o', 'w', 'n', '-', 'l', 'i', 'n', 'u', 'x', '-', 'g', 'n', 'u', 'a', 'b', 'i', '6', '4']),
  (['M', 'I', 'P', 'S', 'I', 'S', 'A', '6', '4', 'R', '6', 'E', 'L', '_', 'U', 'N', 'K', 'N', 'O', 'W', 'N', '_', 'L', 'I', 'N', 'U', 'X', '_', 'G', 'N', 'U', 'A', 'B', 'I', '6', '4'], ['m', 'i', 'p', 's', 'i', 's', 'a', '6', '4', 'r', '6', 'e', 'l', '-', 'u', 'n', 'k', 'n', 'o', 'w', 'n', '-', 'l', 'i', 'n', 'u', 'x', '-', 'g', 'n', 'u', 'a', 'b', 'i', '6', '4']),
  (['M', 'S', 'P', '4', '3', '0', '_', 'N', 'O', 'N', 'E', '_', 'E', 'L', 'F'], ['m', 's', 'p', '4', '3', '0', '-', 'n', 'o', 'n', 'e', '-', 'e', 'l', 'f']),
  (['N', 'V', 'P', 'T', 'X', '6', '4', '_', 'N', 'V', 'I', 'D', 'I', 'A', '_', 'C', 'U', 'D', 'A'], ['n', 'v', 'p', 't', 'x', '6', '4', '-', 'n', 'v', 'i', 'd', 'i', 'a', '-', 'c', 'u', 'd', 'a']),
  (['P', 'O', 'W', 'E', 'R', 'P', 'C', '_', 'U', 'N', 'K', 'N', 'O', 'W', 'N', '_', 'F', 'R', 'E', 'E', 'B', 'S', 'D'], ['p', 'o', 'w', 'e', 'r', 'p', 'c', '-', 'u', 'n', 'k', 'n', 'o', 'w', 'n', '-', 'f', 'r', 'e', 'e', 'b', 's', 'd']),
  (['P', 'O', 'W', 'E', 'R', 'P', 'C', '_', 'U', 'N', 'K', 'N', 'O', 'W', 'N', '_', 'H', 'E', 'L', 'E', 'N', 'O', 'S'], ['p', 'o', 'w', 'e', 'r', 'p', 'c', '-', 'u', 'n', 'k', 'n', 'o', 'w', 'n', '-', 'h', 'e', 'l', 'e', 'n', 'o', 's']),
  (['P', 'O', 'W', 'E', 'R', 'P', 'C', '_', 'U', 'N', 'K', 'N', 'O', 'W', 'N', '_', 'L', 'I', 'N', 'U', 'X', '_', 'G', 'N', 'U'], ['p', 'o', 'w', 'e', 'r', 'p', 'c', '-', 'u', 'n', 'k', 'n', 'o', 'w', 'n', '-', 'l', 'i', 'n', 'u', 'x', '-', 'g', 'n', 'u']),
  (['P', 'O', 'W', 'E', 'R', 'P', 'C', '_', 'U', 'N', 'K', 'N', 'O', 'W', 'N', '_', 'L', 'I', 'N', 'U', 'X', '_', 'G', 'N', 'U', 'S', 'P', 'E'], ['p', 'o', 'w', 'e', 'r', 'p', 'c', '-', 'u', 'n', 'k', 'n', 'o', 'w', 'n', '-', 'l', 'i', 'n', 'u', 'x', '-', 'g', 'n', 'u', 's', 'p', 'e']),
  (['P', 'O', 'W', 'E', 'R', 'P', 'C', '_', 'U', 'N', 'K', 'N', 'O', 'W', 'N', '_', 'L', 'I', 'N', 'U', 'X', '_', 'M', 'U', 'S', 'L'], ['p', 'o', 'w', 'e', 'r', 'p', 'c', '-', 'u', 'n', 'k', 'n', 'o', 'w', 'n', '-', 'l', 'i', 'n', 'u', 'x', '-', 'm', 'u', 's', 'l']),
  (['P', 'O', 'W', 'E', 'R', 'P', 'C', '_', 'U', 'N', 'K', 'N', 'O', 'W', 'N', '_', 'L', 'I', 'N', 'U', 'X', '_', 'M', 'U', 'S', 'L', 'S', 'P', 'E'], ['p', 'o', 'w', 'e', 'r', 'p', 'c', '-', 'u', 'n', 'k', 'n', 'o', 'w', 'n', '-', 'l', 'i', 'n', 'u', 'x', '-', 'm', 'u', 's', 'l', 's', 'p', 'e']),
  (['P', 'O', 'W', 'E', 'R', 'P', 'C', '_', 'U', 'N', 'K', 'N', 'O', 'W', 'N', '_', 'N', 'E', 'T', 'B', 'S', 'D'], ['p', 'o', 'w', 'e', 'r', 'p', 'c', '-', 'u', 'n', 'k', 'n', 'o', 'w', 'n', '-', 'n', 'e', 't', 'b', 's', 'd']),
  (['P', 'O', 'W', 'E', 'R', 'P', 'C', '_', 'U', 'N', 'K', 'N', 'O', 'W', 'N', '_', 'O', 'P', 'E', 'N', 'B', 'S', 'D'], ['p', 'o', 'w', 'e', 'r', 'p', 'c', '-', 'u', 'n', 'k', 'n', 'o', 'w', 'n', '-', 'o', 'p', 'e', 'n', 'b', 's', 'd']),
  (['P', 'O', 'W', 'E', 'R', 'P', 'C', '_', 'W', 'R', 'S', '_', 'V', 'X', 'W', 'O', 'R', 'K', 'S'], ['p', 'o', 'w', 'e', 'r', 'p', 'c', '-', 'w', 'r', 's', '-', 'v', 'x', 'w', 'o', 'r', 'k', 's']),
  (['P', 'O', 'W', 'E', 'R', 'P', 'C', '_', 'W', 'R', 'S', '_', 'V', 'X', 'W', 'O', 'R', 'K', 'S', '_', 'S', 'P', 'E'], ['p', 'o', 'w', 'e', 'r', 'p', 'c', '-', 'w', 'r', 's', '-', 'v', 'x', 'w', 'o', 'r', 'k', 's', '-', 's', 'p', 'e']),
  (['P', 'O', 'W', 'E', 'R', 'P', 'C', '6', '4', '_', 'I', 'B', 'M', '_', 'A', 'I', 'X'], ['p', 'o', 'w', 'e', 'r', 'p', 'c', '6', '4', '-', 'i', 'b', 'm', '-', 'a', 'i', 'x']),
  (['P', 'O', 'W', 'E', 'R', 'P', 'C', '6', '4', '_', 'U', 'N', 'K', 'N', 'O', 'W', 'N', '_', 'F', 'R', 'E', 'E', 'B', 'S', 'D'], ['p', 'o', 'w', 'e', 'r', 'p', 'c', '6', '4', '-', 'u', 'n', 'k', 'n', 'o', 'w', 'n', '-', 'f', 'r', 'e', 'e', 'b', 's', 'd']),
  (['P', 'O', 'W', 'E', 'R', 'P', 'C', '6', '4', '_', 'U', 'N', 'K', 'N', 'O', 'W', 'N', '_', 'L', 'I', 'N', 'U', 'X', '_', 'G', 'N', 'U'], ['p', 'o', 'w', 'e', 'r', 'p', 'c', '6', '4', '-', 'u', 'n', 'k', 'n', 'o', 'w', 'n', '-', 'l', 'i', 'n', 'u', 'x', '-', 'g', 'n', 'u']),
  (['P', 'O', 'W', 'E', 'R', 'P', 'C', '6', '4', '_', 'U', 'N', 'K', 'N', 'O', 'W', 'N', '_', 'L', 'I', 'N', 'U', 'X', '_', 'G', 'N', 'U', 'E', 'L', 'F', 'V', '2'], ['p', 'o', 'w', 'e', 'r', 'p', 'c', '6', '4', '-', 'u', 'n', 'k', 'n', 'o', 'w', 'n', '-', 'l', 'i', 'n', 'u', 'x', '-', 'g', 'n', 'u', 'e', 'l', 'f', 'v', '2']),
  (['P', 'O', 'W', 'E', 'R', 'P', 'C', '6', '4', '_', 'U', 'N', 'K', 'N', 'O', 'W', 'N', '_', 'L', 'I', 'N', 'U', 'X', '_', 'M', 'U', 'S', 'L'], ['p', 'o', 'w', 'e', 'r', 'p', 'c', '6', '4', '-', 'u', 'n', 'k', 'n', 'o', 'w', 'n', '-', 'l', 'i', 'n', 'u', 'x', '-', 'm', 'u', 's', 'l']),
  (['P', 'O', 'W', 'E', 'R', 'P', 'C', '6', '4', '_', 'U', 'N', 'K', 'N', 'O', 'W', 'N', '_', 'O', 'P', 'E', 'N', 'B', 'S', 'D'], ['p', 'o', 'w', 'e', 'r', 'p', 'c', '6', '4', '-', 'u', 'n', 'k', 'n', 'o', 'w', 'n', '-', 'o', 'p', 'e', 'n', 'b', 's', 'd']),
  (['P', 'O', 'W', 'E', 'R', 'P', 'C', '6', '4', '_', 'W', 'R', 'S', '_', 'V', 'X', 'W', 'O', 'R', 'K', 'S'], ['p', 'o', 'w', 'e', 'r', 'p', 'c', '6', '4', '-', 'w', 'r', 's', '-', 'v', 'x', 'w', 'o', 'r', 'k', 's']),
  (['P', 'O', 'W', 'E', 'R', 'P', 'C', '6', '4', 'L', 'E', '_', 'U', 'N', 'K', 'N', 'O', 'W', 'N', '_', 'F', 'R', 'E', 'E', 'B', 'S', 'D'], ['p', 'o', 'w', 'e', 'r', 'p', 'c', '6', '4', 'l', 'e', '-', 'u', 'n', 'k', 'n', 'o', 'w', 'n', '-', 'f', 'r', 'e', 'e', 'b', 's', 'd']),
  (['P', 'O', 'W', 'E', 'R', 'P', 'C', '6', '4', 'L', 'E', '_', 'U', 'N', 'K', 'N', 'O', 'W', 'N', '_', 'L', 'I', 'N', 'U', 'X', '_', 'G', 'N', 'U'], ['p', 'o', 'w', 'e', 'r', 'p', 'c', '6', '4', 'l', 'e', '-', 'u', 'n', 'k', 'n', 'o', 'w', 'n', '-', 'l', 'i', 'n', 'u', 'x', '-', 'g', 'n', 'u']),
  (['P', 'O', 'W', 'E', 'R', 'P', 'C', '6', '4', 'L', 'E', '_', 'U', 'N', 'K', 'N', 'O', 'W', 'N', '_', 'L', 'I', 'N', 'U', 'X', '_', 'M', 'U', 'S', 'L'], ['p', 'o', 'w', 'e', 'r', 'p', 'c', '6', '4', 'l', 'e', '-', 'u', 'n', 'k', 'n', 'o', 'w', 'n', '-', 'l', 'i', 'n', 'u', 'x', '-', 'm', 'u', 's', 'l']),
  (['R', 'I', 'S', 'C', 'V', '3', '2', '_', 'W', 'R', 'S', '_', 'V', 'X', 'W', 'O', 'R', 'K', 'S'], ['r', 'i', 's', 'c', 'v', '3', '2', '-', 'w', 'r', 's', '-', 'v', 'x', 'w', 'o', 'r', 'k', 's']),
  (['R', 'I', 'S', 'C', 'V', '3', '2', 'E', '_', 'U', 'N', 'K', 'N', 'O', 'W', 'N', '_', 'N', 'O', 'N', 'E', '_', 'E', 'L', 'F'], ['r', 'i', 's', 'c', 'v', '3', '2', 'e', '-', 'u', 'n', 'k', 'n', 'o', 'w', 'n', '-', 'n', 'o', 'n', 'e', '-', 'e', 'l', 'f']),
  (['R', 'I', 'S', 'C', 'V', '3', '2', 'E', 'M', '_', 'U', 'N', 'K', 'N', 'O', 'W', 'N', '_', 'N', 'O', 'N', 'E', '_', 'E', 'L', 'F'], ['r', 'i', 's', 'c', 'v', '3', '2', 'e', 'm', '-', 'u', 'n', 'k', 'n', 'o', 'w', 'n', '-', 'n', 'o', 'n', 'e', '-', 'e', 'l', 'f']),
  (['R', 'I', 'S', 'C', 'V', '3', '2', 'E', 'M', 'C', '_', 'U', 'N', 'K', 'N', 'O', 'W', 'N', '_', 'N', 'O', 'N', 'E', '_', 'E', 'L', 'F'], ['r', 'i', 's', 'c', 'v', '3', '2', 'e', 'm', 'c', '-', 'u', 'n', 'k', 'n', 'o', 'w', 'n', '-', 'n', 'o', 'n', 'e', '-', 'e', 'l', 'f']),
  (['R', 'I', 'S', 'C', 'V', '3', '2', 'G', 'C', '_', 'U', 'N', 'K', 'N', 'O', 'W', 'N', '_', 'L', 'I', 'N', 'U', 'X', '_', 'G', 'N', 'U'], ['r', 'i', 's', 'c', 'v', '3', '2', 'g', 'c', '-', 'u', 'n', 'k', 'n', 'o', 'w', 'n', '-', 'l', 'i', 'n', 'u', 'x', '-', 'g', 'n', 'u']),
  (['R', 'I', 'S', 'C', 'V', '3', '2', 'G', 'C', '_', 'U', 'N', 'K', 'N', 'O', 'W', 'N', '_', 'L', 'I', 'N', 'U', 'X', '_', 'M', 'U', 'S', 'L'], ['r', 'i', 's', 'c', 'v', '3', '2', 'g', 'c', '-', 'u', 'n', 'k', 'n', 'o', 'w', 'n', '-', 'l', 'i', 'n', 'u', 'x', '-', 'm', 'u', 's', 'l']),
  (['R', 'I', 'S', 'C', 'V', '3', '2', 'I', '_', 'U', 'N', 'K', 'N', 'O', 'W', 'N', '_', 'N', 'O', 'N', 'E', '_', 'E', 'L', 'F'], ['r', 'i', 's', 'c', 'v', '3', '2', 'i', '-', 'u', 'n', 'k', 'n', 'o', 'w', 'n', '-', 'n', 'o', 'n', 'e', '-', 'e', 'l', 'f']),
  (['R', 'I', 'S', 'C', 'V', '3', '2', 'I', 'M', '_', 'R', 'I', 'S', 'C', '0', '_', 'Z', 'K', 'V', 'M', '_', 'E', 'L', 'F'], ['r', 'i', 's', 'c', 'v', '3', '2', 'i', 'm', '-', 'r', 'i', 's', 'c', '0', '-', 'z', 'k', 'v', 'm', '-', 'e', 'l', 'f']),
  (['R', 'I', 'S', 'C', 'V', '3', '2', 'I', 'M', '_', 'U', 'N', 'K', 'N', 'O', 'W', 'N', '_', 'N', 'O', 'N', 'E', '_', 'E', 'L', 'F'], ['r', 'i', 's', 'c', 'v', '3', '2', 'i', 'm', '-', 'u', 'n', 'k', 'n', 'o', 'w', 'n', '-', 'n', 'o', 'n', 'e', '-', 'e', 'l', 'f']),
  (['R', 'I', 'S', 'C', 'V', '3', '2', 'I', 'M', 'A', '_', 'U', 'N', 'K', 'N', 'O', 'W', 'N', '_', 'N', 'O', 'N', 'E', '_', 'E', 'L', 'F'], ['r', 'i', 's', 'c', 'v', '3', '2', 'i', 'm', 'a', '-', 'u', 'n', 'k', 'n', 'o', 'w', 'n', '-', 'n', 'o', 'n', 'e', '-', 'e', 'l', 'f']),
  (['R', 'I', 'S', 'C', 'V', '3', '2', 'I', 'M', 'A', 'C', '_', 'E', 'S', 'P', '_', 'E', 'S', 'P', 'I', 'D', 'F'], ['r', 'i', 's', 'c', 'v', '3', '2', 'i', 'm', 'a', 'c', '-', 'e', 's', 'p', '-', 'e', 's', 'p', 'i', 'd', 'f']),
  (['R', 'I', 'S', 'C', 'V', '3', '2', 'I', 'M', 'A', 'C', '_', 'U', 'N', 'K', 'N', 'O', 'W', 'N', '_', 'N', 'O', 'N', 'E', '_', 'E', 'L', 'F'], ['r', 'i', 's', 'c', 'v', '3', '2', 'i', 'm', 'a', 'c', '-', 'u', 'n', 'k', 'n', 'o', 'w', 'n', '-', 'n', 'o', 'n', 'e', '-', 'e', 'l', 'f'])]

/-- `platforms.rs`: constants 200 to 249, and the triple of each. -/
def consts4 : List (Str × Str) := [
  (['R', 'I', 'S', 'C', 'V', '3', '2', 'I', 'M', 'A', 'C', '_', 'U', 'N', 'K', 'N', 'O', 'W', 'N', '_', 'N', 'U', 'T', 'T', 'X', '_', 'E', 'L', 'F'], ['r', 'i', 's', 'c', 'v', '3', '2', 'i', 'm', 'a', 'c', '-', 'u', 'n', 'k', 'n', 'o', 'w', 'n', '-', 'n', 'u', 't', 't', 'x', '-', 'e', 'l', 'f']),
  (['R', 'I', 'S', 'C', 'V', '3', '2', 'I', 'M', 'A', 'C', '_', 'U', 'N', 'K', 'N', 'O', 'W', 'N', '_', 'X', 'O', 'U', 'S', '_', 'E', 'L', 'F'], ['r', 'i', 's', 'c', 'v', '3', '2', 'i', 'm', 'a', 'c', '-', 'u', 'n', 'k', 'n', 'o', 'w', 'n', '-', 'x', 'o', 'u', 's', '-', 'e', 'l', 'f']),
  (['R', 'I', 'S', 'C', 'V', '3', '2', 'I', 'M', 'A', 'F', 'C', '_', 'E', 'S', 'P', '_', 'E', 'S', 'P', 'I', 'D', 'F'], ['r', 'i', 's', 'c', 'v', '3', '2', 'i', 'm', 'a', 'f', 'c', '-', 'e', 's', 'p', '-', 'e', 's', 'p', 'i', 'd', 'f']),
  (['R', 'I', 'S', 'C', 'V', '3', '2', 'I', 'M', 'A', 'F', 'C', '_', 'U', 'N', 'K', 'N', 'O', 'W', 'N', '_', 'N', 'O', 'N', 'E', '_', 'E', 'L', 'F'], ['r', 'i', 's', 'c', 'v', '3', '2', 'i', 'm', 'a', 'f', 'c', '-', 'u', 'n', 'k', 'n', 'o', 'w', 'n', '-', 'n', 'o', 'n', 'e', '-', 'e', 'l', 'f']),
  (['R', 'I', 'S', 'C', 'V', '3', '2', 'I', 'M', 'A', 'F', 'C', '_', 'U', 'N', 'K', 'N', 'O', 'W', 'N', '_', 'N', 'U', 'T', 'T', 'X', '_', 'E', 'L', 'F'], ['r', 'i', 's', 'c', 'v', '3', '2', 'i', 'm', 'a', 'f', 'c', '-', 'u', 'n', 'k', 'n', 'o', 'w', 'n', '-', 'n', 'u', 't', 't', 'x', '-', 'e', 'l', 'f']),
  (['R', 'I', 'S', 'C', 'V', '3', '2', 'I', 'M', 'C', '_', 'E', 'S', 'P', '_', 'E', 'S', 'P', 'I', 'D', 'F'], ['r', 'i', 's', 'c', 'v', '3', '2', 'i', 'm', 'c', '-', 'e', 's', 'p', '-', 'e', 's', 'p', 'i', 'd', 'f']),
  (['R', 'I', 'S', 'C', 'V', '3', '2', 'I', 'M', 'C', '_', 'U', 'N', 'K', 'N', 'O', 'W', 'N', '_', 'N', 'O', 'N', 'E', '_', 'E', 'L', 'F'], ['r', 'i', 's', 'c', 'v', '3', '2', 'i', 'm', 'c', '-', 'u', 'n', 'k', 'n', 'o', 'w', 'n', '-', 'n', 'o', 'n', 'e', '-', 'e', 'l', 'f']),
  (['R', 'I', 'S', 'C', 'V', '3', '2', 'I', 'M', 'C', '_', 'U', 'N', 'K', 'N', 'O', 'W', 'N', '_', 'N', 'U', 'T', 'T', 'X', '_', 'E', 'L', 'F'], ['r', 'i', 's', 'c', 'v', '3', '2', 'i', 'm', 'c', '-', 'u', 'n', 'k', 'n', 'o', 'w', 'n', '-', 'n', 'u', 't', 't', 'x', '-', 'e', 'l', 'f']),
  (['R', 'I', 'S', 'C', 'V', '3', '2', 'I', 'M', 'F', 'C', '_', 'U', 'N', 'K', 'N', 'O', 'W', 'N', '_', 'N', 'O', 'N', 'E', '_', 'E', 'L', 'F'], ['r', 'i', 's', 'c', 'v', '3', '2', 'i', 'm', 'f', 'c', '-', 'u', 'n', 'k', 'n', 'o', 'w', 'n', '-', 'n', 'o', 'n', 'e', '-', 'e', 'l', 'f']),
  (['R', 'I', 'S', 'C', 'V', '6', '4', '_', 'L', 'I', 'N', 'U', 'X', '_', 'A', 'N', 'D', 'R', 'O', 'I', 'D'], ['r', 'i', 's', 'c', 'v', '6', '4', '-', 'l', 'i', 'n', 'u', 'x', '-', 'a', 'n', 'd', 'r', 'o', 'i', 'd']),
  (['R', 'I', 'S', 'C', 'V', '6', '4', '_', 'O', 'E', '_', 'L', 'I', 'N', 'U', 'X', '_', 'G', 'N', 'U'], ['r', 'i', 's', 'c', 'v', '6', '4', '-', 'o', 'e', '-', 'l', 'i', 'n', 'u', 'x', '-', 'g', 'n', 'u']),
  (['R', 'I', 'S', 'C', 'V', '6', '4', '_', 'W', 'R', 'S', '_', 'V', 'X', 'W', 'O', 'R', 'K', 'S'], ['r', 'i', 's', 'c', 'v', '6', '4', '-', 'w', 'r', 's', '-', 'v', 'x', 'w', 'o', 'r', 'k', 's']),
  (['R', 'I', 'S', 'C', 'V', '6', '4', 'A', '2', '3', '_', 'U', 'N', 'K', 'N', 'O', 'W', 'N', '_', 'L', 'I', 'N', 'U', 'X', '_', 'G', 'N', 'U'], ['r', 'i', 's', 'c', 'v', '6', '4', 'a', '2', '3', '-', 'u', 'n', 'k', 'n', 'o', 'w', 'n', '-', 'l', 'i', 'n', 'u', 'x', '-', 'g', 'n', 'u']),
  (['R', 'I', 'S', 'C', 'V', '6', '4', 'G', 'C', '_', 'U', 'N', 'K', 'N', 'O', 'W', 'N', '_', 'F', 'R', 'E', 'E', 'B', 'S', 'D'], ['r', 'i', 's', 'c', 'v', '6', '4', 'g', 'c', '-', 'u', 'n', 'k', 'n', 'o', 'w', 'n', '-', 'f', 'r', 'e', 'e', 'b', 's', 'd']),
  (['R', 'I', 'S', 'C', 'V', '6', '4', 'G', 'C', '_', 'U', 'N', 'K', 'N', 'O', 'W', 'N', '_', 'F', 'U', 'C', 'H', 'S', 'I', 'A'], ['r', 'i', 's', 'c', 'v', '6', '4', 'g', 'c', '-', 'u', 'n', 'k', 'n', 'o', 'w', 'n', '-', 'f', 'u', 'c', 'h', 's', 'i', 'a']),
  (['R', 'I', 'S', 'C', 'V', '6', '4', 'G', 'C', '_', 'U', 'N', 'K', 'N', 'O', 'W', 'N', '_', 'H', 'E', 'R', 'M', 'I', 'T'], ['r', 'i', 's', 'c', 'v', '6', '4', 'g', 'c', '-', 'u', 'n', 'k', 'n', 'o', 'w', 'n', '-', 'h', 'e', 'r', 'm', 'i', 't']),
  (['R', 'I', 'S', 'C', 'V', '6', '4', 'G', 'C', '_', 'U', 'N', 'K', 'N', 'O', 'W', 'N', '_', 'L', 'I', 'N', 'U', 'X', '_', 'G', 'N', 'U'], ['r', 'i', 's', 'c', 'v', '6', '4', 'g', 'c', '-', 'u', 'n', 'k', 'n', 'o', 'w', 'n', '-', 'l', 'i', 'n', 'u', 'x', '-', 'g', 'n', 'u']),
  (['R', 'I', 'S', 'C', 'V', '6', '4', 'G', 'C', '_', 'U', 'N', 'K', 'N', 'O', 'W', 'N', '_', 'L', 'I', 'N', 'U', 'X', '_', 'M', 'U', 'S', 'L'], ['r', 'i', 's', 'c', 'v', '6', '4', 'g', 'c', '-', 'u', 'n', 'k', 'n', 'o', 'w', 'n', '-', 'l', 'i', 'n', 'u', 'x', '-', 'm', 'u', 's', 'l']),
  (['R', 'I', 'S', 'C', 'V', '6', '4', 'G', 'C', '_', 'U', 'N', 'K', 'N', 'O', 'W', 'N', '_', 'M', 'A', 'N', 'A', 'G', 'A', 'R', 'M', '_', 'M', 'L', 'I', 'B', 'C'], ['r', 'i', 's', 'c', 'v', '6', '4', 'g', 'c', '-', 'u', 'n', 'k', 'n', 'o', 'w', 'n', '-', 'm', 'a', 'n', 'a', 'g', 'a', 'r', 'm', '-', 'm', 'l', 'i', 'b', 'c']),
  (['R', 'I', 'S', 'C', 'V', '6', '4', 'G', 'C', '_', 'U', 'N', 'K', 'N', 'O', 'W', 'N', '_', 'N', 'E', 'T', 'B', 'S', 'D'], ['r', 'i', 's', 'c', 'v', '6', '4', 'g', 'c', '-', 'u', 'n', 'k', 'n', 'o', 'w', 'n', '-', 'n', 'e', 't', 'b', 's', 'd']),
  (['R', 'I', 'S', 'C', 'V', '6', '4', 'G', 'C', '_', 'U', 'N', 'K', 'N', 'O', 'W', 'N', '_', 'N', 'O', 'N', 'E', '_', 'E', 'L', 'F'], ['r', 'i', 's', 'c', 'v', '6', '4', 'g', 'c', '-', 'u', 'n', 'k', 'n', 'o', 'w', 'n', '-', 'n', 'o', 'n', 'e', '-', 'e', 'l', 'f']),
  (['R', 'I', 'S', 'C', 'V', '6', '4', 'G', 'C', '_', 'U', 'N', 'K', 'N', 'O', 'W', 'N', '_', 'N', 'U', 'T', 'T', 'X', '_', 'E', 'L', 'F'], ['r', 'i', 's', 'c', 'v', '6', '4', 'g', 'c', '-', 'u', 'n', 'k', 'n', 'o', 'w', 'n', '-', 'n', 'u', 't', 't', 'x', '-', 'e', 'l', 'f']),
  (['R', 'I', 'S', 'C', 'V', '6', '4', 'G', 'C', '_', 'U', 'N', 'K', 'N', 'O', 'W', 'N', '_', 'O', 'P', 'E', 'N', 'B', 'S', 'D'], ['r', 'i', 's', 'c', 'v', '6', '4', 'g', 'c', '-', 'u', 'n', 'k', 'n', 'o', 'w', 'n', '-', 'o', 'p', 'e', 'n', 'b', 's', 'd']),
  (['R', 'I', 'S', 'C', 'V', '6', '4', 'G', 'C', '_', 'U', 'N', 'K', 'N', 'O', 'W', 'N', '_', 'R', 'E', 'D', 'O', 'X'], ['r', 'i', 's', 'c', 'v', '6', '4', 'g', 'c', '-', 'u', 'n', 'k', 'n', 'o', 'w', 'n', '-', 'r', 'e', 'd', 'o', 'x']),
  (['R', 'I', 'S', 'C', 'V', '6', '4', 'I', 'M', '_', 'U', 'N', 'K', 'N', 'O', 'W', 'N', '_', 'N', 'O', 'N', 'E', '_', 'E', 'L', 'F'], ['r', 'i', 's', 'c', 'v', '6', '4', 'i', 'm', '-', 'u', 'n', 'k', 'n', 'o', 'w', 'n', '-', 'n', 'o', 'n', 'e', '-', 'e', 'l', 'f']),
  (['R', 'I', 'S', 'C', 'V', '6', '4', 'I', 'M', 'A', 'C', '_', 'U', 'N', 'K', 'N', 'O', 'W', 'N', '_', 'N', 'O', 'N', 'E', '_', 'E', 'L', 'F'], ['r', 'i', 's', 'c', 'v', '6', '4', 'i', 'm', 'a', 'c', '-', 'u', 'n', 'k', 'n', 'o', 'w', 'n', '-', 'n', 'o', 'n', 'e', '-', 'e', 'l', 'f']),
  (['R', 'I', 'S', 'C', 'V', '6', '4', 'I', 'M', 'A', 'C', '_', 'U', 'N', 'K', 'N', 'O', 'W', 'N', '_', 'N', 'U', 'T', 'T', 'X', '_', 'E', 'L', 'F'], ['r', 'i', 's', 'c', 'v', '6', '4', 'i', 'm', 'a', 'c', '-', 'u', 'n', 'k', 'n', 'o', 'w', 'n', '-', 'n', 'u', 't', 't', 'x', '-', 'e', 'l', 'f']),
  (['S', '3', '9', '0', 'X', '_', 'U', 'N', 'K', 'N', 'O', 'W', 'N', '_', 'L', 'I', 'N', 'U', 'X', '_', 'G', 'N', 'U'], ['s', '3', '9', '0', 'x', '-', 'u', 'n', 'k', 'n', 'o', 'w', 'n', '-', 'l', 'i', 'n', 'u', 'x', '-', 'g', 'n', 'u']),
  (['S', '3', '9', '0', 'X', '_', 'U', 'N', 'K', 'N', 'O', 'W', 'N', '_', 'L', 'I', 'N', 'U', 'X', '_', 'M', 'U', 'S', 'L'], ['s', '3', '9', '0', 'x', '-', 'u', 'n', 'k', 'n', 'o', 'w', 'n', '-', 'l', 'i', 'n', 'u', 'x', '-', 'm', 'u', 's', 'l']),
  (['S', '3', '9', '0', 'X', '_', 'U', 'N', 'K', 'N', 'O', 'W', 'N', '_', 'N', 'O', 'N', 'E', '_', 'S', 'O', 'F', 'T', 'F', 'L', 'O', 'A', 'T'], ['s', '3', '9', '0', 'x', '-', 'u', 'n', 'k', 'n', 'o', 'w', 'n', '-', 'n', 'o', 'n', 'e', '-', 's', 'o', 'f', 't', 'f', 'l', 'o', 'a', 't']),
  (['S', 'P', 'A', 'R', 'C', '_', 'U', 'N', 'K', 'N', 'O', 'W', 'N', '_', 'L', 'I', 'N', 'U', 'X', '_', 'G', 'N', 'U'], ['s', 'p', 'a', 'r', 'c', '-', 'u', 'n', 'k', 'n', 'o', 'w', 'n', '-', 'l', 'i', 'n', 'u', 'x', '-', 'g', 'n', 'u']),
  (['S', 'P', 'A', 'R', 'C', '_', 'U', 'N', 'K', 'N', 'O', 'W', 'N', '_', 'N', 'O', 'N', 'E', '_', 'E', 'L', 'F'], ['s', 'p', 'a', 'r', 'c', '-', 'u', 'n', 'k', 'n', 'o', 'w', 'n', '-', 'n', 'o', 'n', 'e', '-', 'e', 'l', 'f']),
  (['S', 'P', 'A', 'R', 'C', '6', '4', '_', 'U', 'N', 'K', 'N', 'O', 'W', 'N', '_', 'H', 'E', 'L', 'E', 'N', 'O', 'S'], ['s', 'p', 'a', 'r', 'c', '6', '4', '-', 'u', 'n', 'k', 'n', 'o', 'w', 'n', '-', 'h', 'e', 'l', 'e', 'n', 'o', 's']),
  (['S', 'P', 'A', 'R', 'C', '6', '4', '_', 'U', 'N', 'K', 'N', 'O', 'W', 'N', '_', 'L', 'I', 'N', 'U', 'X', '_', 'G', 'N', 'U'], ['s', 'p', 'a', 'r', 'c', '6', '4', '-', 'u', 'n', 'k', 'n', 'o', 'w', 'n', '-', 'l', 'i', 'n', 'u', 'x', '-', 'g', 'n', 'u']),
  (['S', 'P', 'A', 'R', 'C', '6', '4', '_', 'U', 'N', 'K', 'N', 'O', 'W', 'N', '_', 'N', 'E', 'T', 'B', 'S', 'D'], ['s', 'p', 'a', 'r', 'c', '6', '4', '-', 'u', 'n', 'k', 'n', 'o', 'w', 'n', '-', 'n', 'e', 't', 'b', 's', 'd']),
  (['S', 'P', 'A', 'R', 'C', '6', '4', '_', 'U', 'N', 'K', 'N', 'O', 'W', 'N', '_', 'O', 'P', 'E', 'N', 'B', 'S', 'D'], ['s', 'p', 'a', 'r', 'c', '6', '4', '-', 'u', 'n', 'k', 'n', 'o', 'w', 'n', '-', 'o', 'p', 'e', 'n', 'b', 's', 'd']),
  (['S', 'P', 'A', 'R', 'C', 'V', '9', '_', 'S', 'U', 'N', '_', 'S', 'O', 'L', 'A', 'R', 'I', 'S'], ['s', 'p', 'a', 'r', 'c', 'v', '9', '-', 's', 'u', 'n', '-', 's', 'o', 'l', 'a', 'r', 'i', 's']),
  (['T', 'H', 'U', 'M', 'B', 'V', '4', 'T', '_', 'N', 'O', 'N', 'E', '_', 'E', 'A', 'B', 'I'], ['t', 'h', 'u', 'm', 'b', 'v', '4', 't', '-', 'n', 'o', 'n', 'e', '-', 'e', 'a', 'b', 'i']),
  (['T', 'H', 'U', 'M', 'B', 'V', '5', 'T', 'E', '_', 'N', 'O', 'N', 'E', '_', 'E', 'A', 'B', 'I'], ['t', 'h', 'u', 'm', 'b', 'v', '5', 't', 'e', '-', 'n', 'o', 'n', 'e', '-', 'e', 'a', 'b', 'i']),
  (['T', 'H', 'U', 'M', 'B', 'V', '6', '_', 'N', 'O', 'N', 'E', '_', 'E', 'A', 'B', 'I'], ['t', 'h', 'u', 'm', 'b', 'v', '6', '-', 'n', 'o', 'n', 'e', '-', 'e', 'a', 'b', 'i']),
  (['T', 'H', 'U', 'M', 'B', 'V', '6', 'M', '_', 'N', 'O', 'N', 'E', '_', 'E', 'A', 'B', 'I'], ['t', 'h', 'u', 'm', 'b', 'v', '6', 'm', '-', 'n', 'o', 'n', 'e', '-', 'e', 'a', 'b', 'i']),
  (['T', 'H', 'U', 'M', 'B', 'V', '6', 'M', '_', 'N', 'U', 'T', 'T', 'X', '_', 'E', 'A', 'B', 'I'], ['t', 'h', 'u', 'm', 'b', 'v', '6', 'm', '-', 'n', 'u', 't', 't', 'x', '-', 'e', 'a', 'b', 'i']),
  (['T', 'H', 'U', 'M', 'B', 'V', '7', 'A', '_', 'N', 'O', 'N', 'E', '_', 'E', 'A', 'B', 'I'], ['t', 'h', 'u', 'm', 'b', 'v', '7', 'a', '-', 'n', 'o', 'n', 'e', '-', 'e', 'a', 'b', 'i']),
  (['T', 'H', 'U', 'M', 'B', 'V', '7', 'A', '_', 'N', 'O', 'N', 'E', '_', 'E', 'A', 'B', 'I', 'H', 'F'], ['t', 'h', 'u', 'm', 'b', 'v', '7', 'a', '-', 'n', 'o', 'n', 'e', '-', 'e', 'a', 'b', 'i', 'h', 'f']),
  (['T', 'H', 'U', 'M', 'B', 'V', '7', 'A', '_', 'N', 'U', 'T', 'T', 'X', '_', 'E', 'A', 'B', 'I'], ['t', 'h', 'u', 'm', 'b', 'v', '7', 'a', '-', 'n', 'u', 't', 't', 'x', '-', 'e', 'a', 'b', 'i']),
  (['T', 'H', 'U', 'M', 'B', 'V', '7', 'A', '_', 'N', 'U', 'T', 'T', 'X', '_', 'E', 'A', 'B', 'I', 'H', 'F'], ['t', 'h', 'u', 'm', 'b', 'v', '7', 'a', '-', 'n', 'u', 't', 't', 'x', '-', 'e', 'a', 'b', 'i', 'h', 'f']),
  (['T', 'H', 'U', 'M', 'B', 'V', '7', 'A', '_', 'P', 'C', '_', 'W', 'I', 'N', 'D', 'O', 'W', 'S', '_', 'M', 'S', 'V', 'C'], ['t', 'h', 'u', 'm', 'b', 'v', '7', 'a', '-', 'p', 'c', '-', 'w', 'i', 'n', 'd', 'o', 'w', 's', '-', 'm', 's', 'v', 'c']),
  (['T', 'H', 'U', 'M', 'B', 'V', '7', 'A', '_', 'U', 'W', 'P', '_', 'W', 'I', 'N', 'D', 'O', 'W', 'S', '_', 'M', 'S', 'V', 'C'], ['t', 'h', 'u', 'm', 'b', 'v', '7', 'a', '-', 'u', 'w', 'p', '-', 'w', 'i', 'n', 'd', 'o', 'w', 's', '-', 'm', 's', 'v', 'c']),
  (['T', 'H', 'U', 'M', 'B', 'V', '7', 'A', '_', 'V', 'E', 'X', '_', 'V', '5'], ['t', 'h', 'u', 'm', 'b', 'v', '7', 'a', '-', 'v', 'e', 'x', '-', 'v', '5']),
  (['T', 'H', 'U', 'M', 'B', 'V', '7', 'E', 'M', '_', 'N', 'O', 'N', 'E', '_', 'E', 'A', 'B', 'I'], ['t', 'h', 'u', 'm', 'b', 'v', '7', 'e', 'm', '-', 'n', 'o', 'n', 'e', '-', 'e', 'a', 'b', 'i'])]

/-- `platforms.rs`: constants 250 to 299, and the triple of each. -/
def consts5 : List (Str × Str) := [
  (['T', 'H', 'U', 'M', 'B', 'V', '7', 'E', 'M', '_', 'N', 'O', 'N', 'E', '_', 'E', 'A', 'B', 'I', 'H', 'F'], ['t', 'h', 'u', 'm', 'b', 'v', '7', 'e', 'm', '-', 'n', 'o', 'n', 'e', '-', 'e', 'a', 'b', 'i', 'h', 'f']),
  (['T', 'H', 'U', 'M', 'B', 'V', '7', 'E', 'M', '_', 'N', 'U', 'T', 'T', 'X', '_', 'E', 'A', 'B', 'I'], ['t', 'h', 'u', 'm', 'b', 'v', '7', 'e', 'm', '-', 'n', 'u', 't', 't', 'x', '-', 'e', 'a', 'b', 'i']),
  (['T', 'H', 'U', 'M', 'B', 'V', '7', 'E', 'M', '_', 'N', 'U', 'T', 'T', 'X', '_', 'E', 'A', 'B', 'I', 'H', 'F'], ['t', 'h', 'u', 'm', 'b', 'v', '7', 'e', 'm', '-', 'n', 'u', 't', 't', 'x', '-', 'e', 'a', 'b', 'i', 'h', 'f']),
  (['T', 'H', 'U', 'M', 'B', 'V', '7', 'M', '_', 'N', 'O', 'N', 'E', '_', 'E', 'A', 'B', 'I'], ['t', 'h', 'u', 'm', 'b', 'v', '7', 'm', '-', 'n', 'o', 'n', 'e', '-', 'e', 'a', 'b', 'i']),
  (['T', 'H', 'U', 'M', 'B', 'V', '7', 'M', '_', 'N', 'U', 'T', 'T', 'X', '_', 'E', 'A', 'B', 'I'], ['t', 'h', 'u', 'm', 'b', 'v', '7', 'm', '-', 'n', 'u', 't', 't', 'x', '-', 'e', 'a', 'b', 'i']),
  (['T', 'H', 'U', 'M', 'B', 'V', '7', 'N', 'E', 'O', 'N', '_', 'L', 'I', 'N', 'U', 'X', '_', 'A', 'N', 'D', 'R', 'O', 'I', 'D', 'E', 'A', 'B', 'I'], ['t', 'h', 'u', 'm', 'b', 'v', '7', 'n', 'e', 'o', 'n', '-', 'l', 'i', 'n', 'u', 'x', '-', 'a', 'n', 'd', 'r', 'o', 'i', 'd', 'e', 'a', 'b', 'i']),
  (['T', 'H', 'U', 'M', 'B', 'V', '7', 'N', 'E', 'O', 'N', '_', 'U', 'N', 'K', 'N', 'O', 'W', 'N', '_', 'L', 'I', 'N', 'U', 'X', '_', 'G', 'N', 'U', 'E', 'A', 'B', 'I', 'H', 'F'], ['t', 'h', 'u', 'm', 'b', 'v', '7', 'n', 'e', 'o', 'n', '-', 'u', 'n', 'k', 'n', 'o', 'w', 'n', '-', 'l', 'i', 'n', 'u', 'x', '-', 'g', 'n', 'u', 'e', 'a', 'b', 'i', 'h', 'f']),
  (['T', 'H', 'U', 'M', 'B', 'V', '7', 'N', 'E', 'O', 'N', '_', 'U', 'N', 'K', 'N', 'O', 'W', 'N', '_', 'L', 'I', 'N', 'U', 'X', '_', 'M', 'U', 'S', 'L', 'E', 'A', 'B', 'I', 'H', 'F'], ['t', 'h', 'u', 'm', 'b', 'v', '7', 'n', 'e', 'o', 'n', '-', 'u', 'n', 'k', 'n', 'o', 'w', 'n', '-', 'l', 'i', 'n', 'u', 'x', '-', 'm', 'u', 's', 'l', 'e', 'a', 'b', 'i', 'h', 'f']),
  (['T', 'H', 'U', 'M', 'B', 'V', '7', 'R', '_', 'N', 'O', 'N', 'E', '_', 'E', 'A', 'B', 'I'], ['t', 'h', 'u', 'm', 'b', 'v', '7', 'r', '-', 'n', 'o', 'n', 'e', '-', 'e', 'a', 'b', 'i']),
  (['T', 'H', 'U', 'M', 'B', 'V', '7', 'R', '_', 'N', 'O', 'N', 'E', '_', 'E', 'A', 'B', 'I', 'H', 'F'], ['t', 'h', 'u', 'm', 'b', 'v', '7', 'r', '-', 'n', 'o', 'n', 'e', '-', 'e', 'a', 'b', 'i', 'h', 'f']),
  (['T', 'H', 'U', 'M', 'B', 'V', '8', 'M', '_', 'B', 'A', 'S', 'E', '_', 'N', 'O', 'N', 'E', '_', 'E', 'A', 'B', 'I'], ['t', 'h', 'u', 'm', 'b', 'v', '8', 'm', '.', 'b', 'a', 's', 'e', '-', 'n', 'o', 'n', 'e', '-', 'e', 'a', 'b', 'i']),
  (['T', 'H', 'U', 'M', 'B', 'V', '8', 'M', '_', 'B', 'A', 'S', 'E', '_', 'N', 'U', 'T', 'T', 'X', '_', 'E', 'A', 'B', 'I'], ['t', 'h', 'u', 'm', 'b', 'v', '8', 'm', '.', 'b', 'a', 's', 'e', '-', 'n', 'u', 't', 't', 'x', '-', 'e', 'a', 'b', 'i']),
  (['T', 'H', 'U', 'M', 'B', 'V', '8', 'M', '_', 'M', 'A', 'I', 'N', '_', 'N', 'O', 'N', 'E', '_', 'E', 'A', 'B', 'I'], ['t', 'h', 'u', 'm', 'b', 'v', '8', 'm', '.', 'm', 'a', 'i', 'n', '-', 'n', 'o', 'n', 'e', '-', 'e', 'a', 'b', 'i']),
  (['T', 'H', 'U', 'M', 'B', 'V', '8', 'M', '_', 'M', 'A', 'I', 'N', '_', 'N', 'O', 'N', 'E', '_', 'E', 'A', 'B', 'I', 'H', 'F'], ['t', 'h', 'u', 'm', 'b', 'v', '8', 'm', '.', 'm', 'a', 'i', 'n', '-', 'n', 'o', 'n', 'e', '-', 'e', 'a', 'b', 'i', 'h', 'f']),
  (['T', 'H', 'U', 'M', 'B', 'V', '8', 'M', '_', 'M', 'A', 'I', 'N', '_', 'N', 'U', 'T', 'T', 'X', '_', 'E', 'A', 'B', 'I'], ['t', 'h', 'u', 'm', 'b', 'v', '8', 'm', '.', 'm', 'a', 'i', 'n', '-', 'n', 'u', 't', 't', 'x', '-', 'e', 'a', 'b', 'i']),
  (['T', 'H', 'U', 'M', 'B', 'V', '8', 'M', '_', 'M', 'A', 'I', 'N', '_', 'N', 'U', 'T', 'T', 'X', '_', 'E', 'A', 'B', 'I', 'H', 'F'], ['t', 'h', 'u', 'm', 'b', 'v', '8', 'm', '.', 'm', 'a', 'i', 'n', '-', 'n', 'u', 't', 't', 'x', '-', 'e', 'a', 'b', 'i', 'h', 'f']),
  (['T', 'H', 'U', 'M', 'B', 'V', '8', 'R', '_', 'N', 'O', 'N', 'E', '_', 'E', 'A', 'B', 'I', 'H', 'F'], ['t', 'h', 'u', 'm', 'b', 'v', '8', 'r', '-', 'n', 'o', 'n', 'e', '-', 'e', 'a', 'b', 'i', 'h', 'f']),
  (['W', 'A', 'S', 'M', '3', '2', '_', 'U', 'N', 'K', 'N', 'O', 'W', 'N', '_', 'E', 'M', 'S', 'C', 'R', 'I', 'P', 'T', 'E', 'N'], ['w', 'a', 's', 'm', '3', '2', '-', 'u', 'n', 'k', 'n', 'o', 'w', 'n', '-', 'e', 'm', 's', 'c', 'r', 'i', 'p', 't', 'e', 'n']),
  (['W', 'A', 'S', 'M', '3', '2', '_', 'U', 'N', 'K', 'N', 'O', 'W', 'N', '_', 'U', 'N', 'K', 'N', 'O', 'W', 'N'], ['w', 'a', 's', 'm', '3', '2', '-', 'u', 'n', 'k', 'n', 'o', 'w', 'n', '-', 'u', 'n', 'k', 'n', 'o', 'w', 'n']),
  (['W', 'A', 'S', 'M', '3', '2', '_', 'W', 'A', 'L', 'I', '_', 'L', 'I', 'N', 'U', 'X', '_', 'M', 'U', 'S', 'L'], ['w', 'a', 's', 'm', '3', '2', '-', 'w', 'a', 'l', 'i', '-', 'l', 'i', 'n', 'u', 'x', '-', 'm', 'u', 's', 'l']),
  (['W', 'A', 'S', 'M', '3', '2', '_', 'W', 'A', 'S', 'I', 'P', '1'], ['w', 'a', 's', 'm', '3', '2', '-', 'w', 'a', 's', 'i', 'p', '1']),
  (['W', 'A', 'S', 'M', '3', '2', '_', 'W', 'A', 'S', 'I', 'P', '1', '_', 'T', 'H', 'R', 'E', 'A', 'D', 'S'], ['w', 'a', 's', 'm', '3', '2', '-', 'w', 'a', 's', 'i', 'p', '1', '-', 't', 'h', 'r', 'e', 'a', 'd', 's']),
  (['W', 'A', 'S', 'M', '3', '2', '_', 'W', 'A', 'S', 'I', 'P', '2'], ['w', 'a', 's', 'm', '3', '2', '-', 'w', 'a', 's', 'i', 'p', '2']),
  (['W', 'A', 'S', 'M', '3', '2', '_', 'W', 'A', 'S', 'I', 'P', '3'], ['w', 'a', 's', 'm', '3', '2', '-', 'w', 'a', 's', 'i', 'p', '3']),
  (['W', 'A', 'S', 'M', '3', '2', 'V', '1', '_', 'N', 'O', 'N', 'E'], ['w', 'a', 's', 'm', '3', '2', 'v', '1', '-', 'n', 'o', 'n', 'e']),
  (['W', 'A', 'S', 'M', '6', '4', '_', 'U', 'N', 'K', 'N', 'O', 'W', 'N', '_', 'U', 'N', 'K', 'N', 'O', 'W', 'N'], ['w', 'a', 's', 'm', '6', '4', '-', 'u', 'n', 'k', 'n', 'o', 'w', 'n', '-', 'u', 'n', 'k', 'n', 'o', 'w', 'n']),
  (['X', '8', '6', '_', '6', '4', '_', 'A', 'P', 'P', 'L', 'E', '_', 'D', 'A', 'R', 'W', 'I', 'N'], ['x', '8', '6', '_', '6', '4', '-', 'a', 'p', 'p', 'l', 'e', '-', 'd', 'a', 'r', 'w', 'i', 'n']),
  (['X', '8', '6', '_', '6', '4', '_', 'A', 'P', 'P', 'L', 'E', '_', 'I', 'O', 'S'], ['x', '8', '6', '_', '6', '4', '-', 'a', 'p', 'p', 'l', 'e', '-', 'i', 'o', 's']),
  (['X', '8', '6', '_', '6', '4', '_', 'A', 'P', 'P', 'L', 'E', '_', 'I', 'O', 'S', '_', 'M', 'A', 'C', 'A', 'B', 'I'], ['x', '8', '6', '_', '6', '4', '-', 'a', 'p', 'p', 'l', 'e', '-', 'i', 'o', 's', '-', 'm', 'a', 'c', 'a', 'b', 'i']),
  (['X', '8', '6', '_', '6', '4', '_', 'A', 'P', 'P', 'L', 'E', '_', 'T', 'V', 'O', 'S'], ['x', '8', '6', '_', '6', '4', '-', 'a', 'p', 'p', 'l', 'e', '-', 't', 'v', 'o', 's']),
  (['X', '8', '6', '_', '6', '4', '_', 'A', 'P', 'P', 'L', 'E', '_', 'W', 'A', 'T', 'C', 'H', 'O', 'S', '_', 'S', 'I', 'M'], ['x', '8', '6', '_', '6', '4', '-', 'a', 'p', 'p', 'l', 'e', '-', 'w', 'a', 't', 'c', 'h', 'o', 's', '-', 's', 'i', 'm']),
  (['X', '8', '6', '_', '6', '4', '_', 'F', 'O', 'R', 'T', 'A', 'N', 'I', 'X', '_', 'U', 'N', 'K', 'N', 'O', 'W', 'N', '_', 'S', 'G', 'X'], ['x', '8', '6', '_', '6', '4', '-', 'f', 'o', 'r', 't', 'a', 'n', 'i', 'x', '-', 'u', 'n', 'k', 'n', 'o', 'w', 'n', '-', 's', 'g', 'x']),
  (['X', '8', '6', '_', '6', '4', '_', 'L', 'I', 'N', 'U', 'X', '_', 'A', 'N', 'D', 'R', 'O', 'I', 'D'], ['x', '8', '6', '_', '6', '4', '-', 'l', 'i', 'n', 'u', 'x', '-', 'a', 'n', 'd', 'r', 'o', 'i', 'd']),
  (['X', '8', '6', '_', '6', '4', '_', 'L', 'Y', 'N', 'X', '_', 'L', 'Y', 'N', 'X', 'O', 'S', '1', '7', '8'], ['x', '8', '6', '_', '6', '4', '-', 'l', 'y', 'n', 'x', '-', 'l', 'y', 'n', 'x', 'o', 's', '1', '7', '8']),
  (['X', '8', '6', '_', '6', '4', '_', 'O', 'E', '_', 'L', 'I', 'N', 'U', 'X', '_', 'G', 'N', 'U'], ['x', '8', '6', '_', '6', '4', '-', 'o', 'e', '-', 'l', 'i', 'n', 'u', 'x', '-', 'g', 'n', 'u']),
  (['X', '8', '6', '_', '6', '4', '_', 'P', 'C', '_', 'C', 'Y', 'G', 'W', 'I', 'N'], ['x', '8', '6', '_', '6', '4', '-', 'p', 'c', '-', 'c', 'y', 'g', 'w', 'i', 'n']),
  (['X', '8', '6', '_', '6', '4', '_', 'P', 'C', '_', 'N', 'T', 'O', '_', 'Q', 'N', 'X', '7', '1', '0'], ['x', '8', '6', '_', '6', '4', '-', 'p', 'c', '-', 'n', 't', 'o', '-', 'q', 'n', 'x', '7', '1', '0']),
  (['X', '8', '6', '_', '6', '4', '_', 'P', 'C', '_', 'N', 'T', 'O', '_', 'Q', 'N', 'X', '7', '1', '0', '_', 'I', 'O', 'S', 'O', 'C', 'K'], ['x', '8', '6', '_', '6', '4', '-', 'p', 'c', '-', 'n', 't', 'o', '-', 'q', 'n', 'x', '7', '1', '0', '_', 'i', 'o', 's', 'o', 'c', 'k']),
  (['X', '8', '6', '_', '6', '4', '_', 'P', 'C', '_', 'Q', 'N', 'X'], ['x', '8', '6', '_', '6', '4', '-', 'p', 'c', '-', 'q', 'n', 'x']),
  (['X', '8', '6', '_', '6', '4', '_', 'P', 'C', '_', 'S', 'O', 'L', 'A', 'R', 'I', 'S'], ['x', '8', '6', '_', '6', '4', '-', 'p', 'c', '-', 's', 'o', 'l', 'a', 'r', 'i', 's']),
  (['X', '8', '6', '_', '6', '4', '_', 'P', 'C', '_', 'W', 'I', 'N', 'D', 'O', 'W', 'S', '_', 'G', 'N', 'U'], ['x', '8', '6', '_', '6', '4', '-', 'p', 'c', '-', 'w', 'i', 'n', 'd', 'o', 'w', 's', '-', 'g', 'n', 'u']),
  (['X', '8', '6', '_', '6', '4', '_', 'P', 'C', '_', 'W', 'I', 'N', 'D', 'O', 'W', 'S', '_', 'G', 'N', 'U', 'L', 'L', 'V', 'M'], ['x', '8', '6', '_', '6', '4', '-', 'p', 'c', '-', 'w', 'i', 'n', 'd', 'o', 'w', 's', '-', 'g', 'n', 'u', 'l', 'l', 'v', 'm']),
  (['X', '8', '6', '_', '6', '4', '_', 'P', 'C', '_', 'W', 'I', 'N', 'D', 'O', 'W', 'S', '_', 'M', 'S', 'V', 'C'], ['x', '8', '6', '_', '6', '4', '-', 'p', 'c', '-', 'w', 'i', 'n', 'd', 'o', 'w', 's', '-', 'm', 's', 'v', 'c']),
  (['X', '8', '6', '_', '6', '4', '_', 'U', 'N', 'I', 'K', 'R', 'A', 'F', 'T', '_', 'L', 'I', 'N', 'U', 'X', '_', 'M', 'U', 'S', 'L'], ['x', '8', '6', '_', '6', '4', '-', 'u', 'n', 'i', 'k', 'r', 'a', 'f', 't', '-', 'l', 'i', 'n', 'u', 'x', '-', 'm', 'u', 's', 'l']),
  (['X', '8', '6', '_', '6', '4', '_', 'U', 'N', 'K', 'N', 'O', 'W', 'N', '_', 'D', 'R', 'A', 'G', 'O', 'N', 'F', 'L', 'Y'], ['x', '8', '6', '_', '6', '4', '-', 'u', 'n', 'k', 'n', 'o', 'w', 'n', '-', 'd', 'r', 'a', 'g', 'o', 'n', 'f', 'l', 'y']),
  (['X', '8', '6', '_', '6', '4', '_', 'U', 'N', 'K', 'N', 'O', 'W', 'N', '_', 'F', 'R', 'E', 'E', 'B', 'S', 'D'], ['x', '8', '6', '_', '6', '4', '-', 'u', 'n', 'k', 'n', 'o', 'w', 'n', '-', 'f', 'r', 'e', 'e', 'b', 's', 'd']),
  (['X', '8', '6', '_', '6', '4', '_', 'U', 'N', 'K', 'N', 'O', 'W', 'N', '_', 'F', 'U', 'C', 'H', 'S', 'I', 'A'], ['x', '8', '6', '_', '6', '4', '-', 'u', 'n', 'k', 'n', 'o', 'w', 'n', '-', 'f', 'u', 'c', 'h', 's', 'i', 'a']),
  (['X', '8', '6', '_', '6', '4', '_', 'U', 'N', 'K', 'N', 'O', 'W', 'N', '_', 'H', 'A', 'I', 'K', 'U'], ['x', '8', '6', '_', '6', '4', '-', 'u', 'n', 'k', 'n', 'o', 'w', 'n', '-', 'h', 'a', 'i', 'k', 'u']),
  (['X', '8', '6', '_', '6', '4', '_', 'U', 'N', 'K', 'N', 'O', 'W', 'N', '_', 'H', 'E', 'L', 'E', 'N', 'O', 'S'], ['x', '8', '6', '_', '6', '4', '-', 'u', 'n', 'k', 'n', 'o', 'w', 'n', '-', 'h', 'e', 'l', 'e', 'n', 'o', 's']),
  (['X', '8', '6', '_', '6', '4', '_', 'U', 'N', 'K', 'N', 'O', 'W', 'N', '_', 'H', 'E', 'R', 'M', 'I', 'T'], ['x', '8', '6', '_', '6', '4', '-', 'u', 'n', 'k', 'n', 'o', 'w', 'n', '-', 'h', 'e', 'r', 'm', 'i', 't'])]

/-- `platforms.rs`: constants 300 to 330, and the triple of each. -/
def consts6 : List (Str × Str) := [
  (['X', '8', '6', '_', '6', '4', '_', 'U', 'N', 'K', 'N', 'O', 'W', 'N', '_', 'H', 'U', 'R', 'D', '_', 'G', 'N', 'U'], ['x', '8', '6', '_', '6', '4', '-', 'u', 'n', 'k', 'n', 'o', 'w', 'n', '-', 'h', 'u', 'r', 'd', '-', 'g', 'n', 'u']),
  (['X', '8', '6', '_', '6', '4', '_', 'U', 'N', 'K', 'N', 'O', 'W', 'N', '_', 'I', 'L', 'L', 'U', 'M', 'O', 'S'], ['x', '8', '6', '_', '6', '4', '-', 'u', 'n', 'k', 'n', 'o', 'w', 'n', '-', 'i', 'l', 'l', 'u', 'm', 'o', 's']),
  (['X', '8', '6', '_', '6', '4', '_', 'U', 'N', 'K', 'N', 'O', 'W', 'N', '_', 'L', '4', 'R', 'E', '_', 'U', 'C', 'L', 'I', 'B', 'C'], ['x', '8', '6', '_', '6', '4', '-', 'u', 'n', 'k', 'n', 'o', 'w', 'n', '-', 'l', '4', 'r', 'e', '-', 'u', 'c', 'l', 'i', 'b', 'c']),
  (['X', '8', '6', '_', '6', '4', '_', 'U', 'N', 'K', 'N', 'O', 'W', 'N', '_', 'L', 'I', 'N', 'U', 'X', '_', 'G', 'N', 'U'], ['x', '8', '6', '_', '6', '4', '-', 'u', 'n', 'k', 'n', 'o', 'w', 'n', '-', 'l', 'i', 'n', 'u', 'x', '-', 'g', 'n', 'u']),
  (['X', '8', '6', '_', '6', '4', '_', 'U', 'N', 'K', 'N', 'O', 'W', 'N', '_', 'L', 'I', 'N', 'U', 'X', '_', 'G', 'N', 'U', 'A', 'S', 'A', 'N'], ['x', '8', '6', '_', '6', '4', '-', 'u', 'n', 'k', 'n', 'o', 'w', 'n', '-', 'l', 'i', 'n', 'u', 'x', '-', 'g', 'n', 'u', 'a', 's', 'a', 'n']),
  (['X', '8', '6', '_', '6', '4', '_', 'U', 'N', 'K', 'N', 'O', 'W', 'N', '_', 'L', 'I', 'N', 'U', 'X', '_', 'G', 'N', 'U', 'M', 'S', 'A', 'N'], ['x', '8', '6', '_', '6', '4', '-', 'u', 'n', 'k', 'n', 'o', 'w', 'n', '-', 'l', 'i', 'n', 'u', 'x', '-', 'g', 'n', 'u', 'm', 's', 'a', 'n']),
  (['X', '8', '6', '_', '6', '4', '_', 'U', 'N', 'K', 'N', 'O', 'W', 'N', '_', 'L', 'I', 'N', 'U', 'X', '_', 'G', 'N', 'U', 'T', 'S', 'A', 'N'], ['x', '8', '6', '_', '6', '4', '-', 'u', 'n', 'k', 'n', 'o', 'w', 'n', '-', 'l', 'i', 'n', 'u', 'x', '-', 'g', 'n', 'u', 't', 's', 'a', 'n']),
  (['X', '8', '6', '_', '6', '4', '_', 'U', 'N', 'K', 'N', 'O', 'W', 'N', '_', 'L', 'I', 'N', 'U', 'X', '_', 'G', 'N', 'U', 'X', '3', '2'], ['x', '8', '6', '_', '6', '4', '-', 'u', 'n', 'k', 'n', 'o', 'w', 'n', '-', 'l', 'i', 'n', 'u', 'x', '-', 'g', 'n', 'u', 'x', '3', '2']),
  (['X', '8', '6', '_', '6', '4', '_', 'U', 'N', 'K', 'N', 'O', 'W', 'N', '_', 'L', 'I', 'N', 'U', 'X', '_', 'M', 'U', 'S', 'L'], ['x', '8', '6', '_', '6', '4', '-', 'u', 'n', 'k', 'n', 'o', 'w', 'n', '-', 'l', 'i', 'n', 'u', 'x', '-', 'm', 'u', 's', 'l']),
  (['X', '8', '6', '_', '6', '4', '_', 'U', 'N', 'K', 'N', 'O', 'W', 'N', '_', 'L', 'I', 'N', 'U', 'X', '_', 'N', 'O', 'N', 'E'], ['x', '8', '6', '_', '6', '4', '-', 'u', 'n', 'k', 'n', 'o', 'w', 'n', '-', 'l', 'i', 'n', 'u', 'x', '-', 'n', 'o', 'n', 'e']),
  (['X', '8', '6', '_', '6', '4', '_', 'U', 'N', 'K', 'N', 'O', 'W', 'N', '_', 'L', 'I', 'N', 'U', 'X', '_', 'O', 'H', 'O', 'S'], ['x', '8', '6', '_', '6', '4', '-', 'u', 'n', 'k', 'n', 'o', 'w', 'n', '-', 'l', 'i', 'n', 'u', 'x', '-', 'o', 'h', 'o', 's']),
  (['X', '8', '6', '_', '6', '4', '_', 'U', 'N', 'K', 'N', 'O', 'W', 'N', '_', 'M', 'A', 'N', 'A', 'G', 'A', 'R', 'M', '_', 'M', 'L', 'I', 'B', 'C'], ['x', '8', '6', '_', '6', '4', '-', 'u', 'n', 'k', 'n', 'o', 'w', 'n', '-', 'm', 'a', 'n', 'a', 'g', 'a', 'r', 'm', '-', 'm', 'l', 'i', 'b', 'c']),
  (['X', '8', '6', '_', '6', '4', '_', 'U', 'N', 'K', 'N', 'O', 'W', 'N', '_', 'M', 'O', 'T', 'O', 'R'], ['x', '8', '6', '_', '6', '4', '-', 'u', 'n', 'k', 'n', 'o', 'w', 'n', '-', 'm', 'o', 't', 'o', 'r']),
  (['X', '8', '6', '_', '6', '4', '_', 'U', 'N', 'K', 'N', 'O', 'W', 'N', '_', 'N', 'E', 'T', 'B', 'S', 'D'], ['x', '8', '6', '_', '6', '4', '-', 'u', 'n', 'k', 'n', 'o', 'w', 'n', '-', 'n', 'e', 't', 'b', 's', 'd']),
  (['X', '8', '6', '_', '6', '4', '_', 'U', 'N', 'K', 'N', 'O', 'W', 'N', '_', 'N', 'O', 'N', 'E'], ['x', '8', '6', '_', '6', '4', '-', 'u', 'n', 'k', 'n', 'o', 'w', 'n', '-', 'n', 'o', 'n', 'e']),
  (['X', '8', '6', '_', '6', '4', '_', 'U', 'N', 'K', 'N', 'O', 'W', 'N', '_', 'O', 'P', 'E', 'N', 'B', 'S', 'D'], ['x', '8', '6', '_', '6', '4', '-', 'u', 'n', 'k', 'n', 'o', 'w', 'n', '-', 'o', 'p', 'e', 'n', 'b', 's', 'd']),
  (['X', '8', '6', '_', '6', '4', '_', 'U', 'N', 'K', 'N', 'O', 'W', 'N', '_', 'R', 'E', 'D', 'O', 'X'], ['x', '8', '6', '_', '6', '4', '-', 'u', 'n', 'k', 'n', 'o', 'w', 'n', '-', 'r', 'e', 'd', 'o', 'x']),
  (['X', '8', '6', '_', '6', '4', '_', 'U', 'N', 'K', 'N', 'O', 'W', 'N', '_', 'T', 'R', 'U', 'S', 'T', 'Y'], ['x', '8', '6', '_', '6', '4', '-', 'u', 'n', 'k', 'n', 'o', 'w', 'n', '-', 't', 'r', 'u', 's', 't', 'y']),
  (['X', '8', '6', '_', '6', '4', '_', 'U', 'N', 'K', 'N', 'O', 'W', 'N', '_', 'U', 'E', 'F', 'I'], ['x', '8', '6', '_', '6', '4', '-', 'u', 'n', 'k', 'n', 'o', 'w', 'n', '-', 'u', 'e', 'f', 'i']),
  (['X', '8', '6', '_', '6', '4', '_', 'U', 'W', 'P', '_', 'W', 'I', 'N', 'D', 'O', 'W', 'S', '_', 'G', 'N', 'U'], ['x', '8', '6', '_', '6', '4', '-', 'u', 'w', 'p', '-', 'w', 'i', 'n', 'd', 'o', 'w', 's', '-', 'g', 'n', 'u']),
  (['X', '8', '6', '_', '6', '4', '_', 'U', 'W', 'P', '_', 'W', 'I', 'N', 'D', 'O', 'W', 'S', '_', 'M', 'S', 'V', 'C'], ['x', '8', '6', '_', '6', '4', '-', 'u', 'w', 'p', '-', 'w', 'i', 'n', 'd', 'o', 'w', 's', '-', 'm', 's', 'v', 'c']),
  (['X', '8', '6', '_', '6', '4', '_', 'W', 'I', 'N', '7', '_', 'W', 'I', 'N', 'D', 'O', 'W', 'S', '_', 'G', 'N', 'U'], ['x', '8', '6', '_', '6', '4', '-', 'w', 'i', 'n', '7', '-', 'w', 'i', 'n', 'd', 'o', 'w', 's', '-', 'g', 'n', 'u']),
  (['X', '8', '6', '_', '6', '4', '_', 'W', 'I', 'N', '7', '_', 'W', 'I', 'N', 'D', 'O', 'W', 'S', '_', 'M', 'S', 'V', 'C'], ['x', '8', '6', '_', '6', '4', '-', 'w', 'i', 'n', '7', '-', 'w', 'i', 'n', 'd', 'o', 'w', 's', '-', 'm', 's', 'v', 'c']),
  (['X', '8', '6', '_', '6', '4', '_', 'W', 'R', 'S', '_', 'V', 'X', 'W', 'O', 'R', 'K', 'S'], ['x', '8', '6', '_', '6', '4', '-', 'w', 'r', 's', '-', 'v', 'x', 'w', 'o', 'r', 'k', 's']),
  (['X', '8', '6', '_', '6', '4', 'H', '_', 'A', 'P', 'P', 'L', 'E', '_', 'D', 'A', 'R', 'W', 'I', 'N'], ['x', '8', '6', '_', '6', '4', 'h', '-', 'a', 'p', 'p', 'l', 'e', '-', 'd', 'a', 'r', 'w', 'i', 'n']),
  (['X', 'T', 'E', 'N', 'S', 'A', '_', 'E', 'S', 'P', '3', '2', '_', 'E', 'S', 'P', 'I', 'D', 'F'], ['x', 't', 'e', 'n', 's', 'a', '-', 'e', 's', 'p', '3', '2', '-', 'e', 's', 'p', 'i', 'd', 'f']),
  (['X', 'T', 'E', 'N', 'S', 'A', '_', 'E', 'S', 'P', '3', '2', '_', 'N', 'O', 'N', 'E', '_', 'E', 'L', 'F'], ['x', 't', 'e', 'n', 's', 'a', '-', 'e', 's', 'p', '3', '2', '-', 'n', 'o', 'n', 'e', '-', 'e', 'l', 'f']),
  (['X', 'T', 'E', 'N', 'S', 'A', '_', 'E', 'S', 'P', '3', '2', 'S', '2', '_', 'E', 'S', 'P', 'I', 'D', 'F'], ['x', 't', 'e', 'n', 's', 'a', '-', 'e', 's', 'p', '3', '2', 's', '2', '-', 'e', 's', 'p', 'i', 'd', 'f']),
  (['X', 'T', 'E', 'N', 'S', 'A', '_', 'E', 'S', 'P', '3', '2', 'S', '2', '_', 'N', 'O', 'N', 'E', '_', 'E', 'L', 'F'], ['x', 't', 'e', 'n', 's', 'a', '-', 'e', 's', 'p', '3', '2', 's', '2', '-', 'n', 'o', 'n', 'e', '-', 'e', 'l', 'f']),
  (['X', 'T', 'E', 'N', 'S', 'A', '_', 'E', 'S', 'P', '3', '2', 'S', '3', '_', 'E', 'S', 'P', 'I', 'D', 'F'], ['x', 't', 'e', 'n', 's', 'a', '-', 'e', 's', 'p', '3', '2', 's', '3', '-', 'e', 's', 'p', 'i', 'd', 'f']),
  (['X', 'T', 'E', 'N', 'S', 'A', '_', 'E', 'S', 'P', '3', '2', 'S', '3', '_', 'N', 'O', 'N', 'E', '_', 'E', 'L', 'F'], ['x', 't', 'e', 'n', 's', 'a', '-', 'e', 's', 'p', '3', '2', 's', '3', '-', 'n', 'o', 'n', 'e', '-', 'e', 'l', 'f'])]

/-- `platforms.rs:352-3972`: the constants, and the triple of each. -/
def committedConsts : List (Str × Str) := consts0 ++ consts1 ++ consts2 ++ consts3 ++ consts4 ++ consts5 ++ consts6

/-- `platforms/src/target/arch.rs:104-135`: the variants, and the text of each. -/
def committedArch : List (Str × Str) := [(['A', 'A', 'r', 'c', 'h', '6', '4'], ['a', 'a', 'r', 'c', 'h', '6', '4']), (['A', 'm', 'd', 'g', 'p', 'u'], ['a', 'm', 'd', 'g', 'p', 'u']), (['A', 'r', 'm'], ['a', 'r', 'm']), (['A', 'r', 'm', '6', '4', 'e', 'c'], ['a', 'r', 'm', '6', '4', 'e', 'c']), (['A', 'v', 'r'], ['a', 'v', 'r']), (['B', 'p', 'f'], ['b', 'p', 'f']), (['C', 's', 'k', 'y'], ['c', 's', 'k', 'y']), (['H', 'e', 'x', 'a', 'g', 'o', 'n'], ['h', 'e', 'x', 'a', 'g', 'o', 'n']), (['L', 'o', 'o', 'n', 'g', 'a', 'r', 'c', 'h', '3', '2'], ['l', 'o', 'o', 'n', 'g', 'a', 'r', 'c', 'h', '3', '2']), (['L', 'o', 'o', 'n', 'g', 'a', 'r', 'c', 'h', '6', '4'], ['l', 'o', 'o', 'n', 'g', 'a', 'r', 'c', 'h', '6', '4']), (['M', '6', '8', 'k'], ['m', '6', '8', 'k']), (['M', 'i', 'p', 's'], ['m', 'i', 'p', 's']), (['M', 'i', 'p', 's', '3', '2', 'r', '6'], ['m', 'i', 'p', 's', '3', '2', 'r', '6']), (['M', 'i', 'p', 's', '6', '4'], ['m', 'i', 'p', 's', '6', '4']), (['M', 'i', 'p', 's', '6', '4', 'r', '6'], ['m', 'i', 'p', 's', '6', '4', 'r', '6']), (['M', 's', 'p', '4', '3', '0'], ['m', 's', 'p', '4', '3', '0']), (['N', 'v', 'p', 't', 'x', '6', '4'], ['n', 'v', 'p', 't', 'x', '6', '4']), (['P', 'o', 'w', 'e', 'r', 'P', 'c'], ['p', 'o', 'w', 'e', 'r', 'p', 'c']), (['P', 'o', 'w', 'e', 'r', 'P', 'c', '6', '4'], ['p', 'o', 'w', 'e', 'r', 'p', 'c', '6', '4']), (['R', 'i', 's', 'c', 'v', '3', '2'], ['r', 'i', 's', 'c', 'v', '3', '2']), (['R', 'i', 's', 'c', 'v', '6', '4'], ['r', 'i', 's', 'c', 'v', '6', '4']), (['S', '3', '9', '0', 'X'], ['s', '3', '9', '0', 'x']), (['S', 'p', 'a', 'r', 'c'], ['s', 'p', 'a', 'r', 'c']), (['S', 'p', 'a', 'r', 'c', '6', '4'], ['s', 'p', 'a', 'r', 'c', '6', '4']), (['W', 'a', 's', 'm', '3', '2'], ['w', 'a', 's', 'm', '3', '2']), (['W', 'a', 's', 'm', '6', '4'], ['w', 'a', 's', 'm', '6', '4']), (['X', '8', '6'], ['x', '8', '6']), (['X', '8', '6', '_', '6', '4'], ['x', '8', '6', '_', '6', '4']), (['X', 't', 'e', 'n', 's', 'a'], ['x', 't', 'e', 'n', 's', 'a'])]

/-- `platforms/src/target/os.rs:171-223`: the variants, and the text of each. -/
def committedOs : List (Str × Str) := [(['A', 'i', 'x'], ['a', 'i', 'x']), (['A', 'm', 'd', 'h', 's', 'a'], ['a', 'm', 'd', 'h', 's', 'a']), (['A', 'n', 'd', 'r', 'o', 'i', 'd'], ['a', 'n', 'd', 'r', 'o', 'i', 'd']), (['C', 'u', 'd', 'a'], ['c', 'u', 'd', 'a']), (['C', 'y', 'g', 'w', 'i', 'n'], ['c', 'y', 'g', 'w', 'i', 'n']), (['D', 'r', 'a', 'g', 'o', 'n', 'f', 'l', 'y'], ['d', 'r', 'a', 'g', 'o', 'n', 'f', 'l', 'y']), (['E', 'm', 's', 'c', 'r', 'i', 'p', 't', 'e', 'n'], ['e', 'm', 's', 'c', 'r', 'i', 'p', 't', 'e', 'n']), (['E', 's', 'p', 'i', 'd', 'f'], ['e', 's', 'p', 'i', 'd', 'f']), (['F', 'r', 'e', 'e', 'B', 'S', 'D'], ['f', 'r', 'e', 'e', 'b', 's', 'd']), (['F', 'u', 'c', 'h', 's', 'i', 'a'], ['f', 'u', 'c', 'h', 's', 'i', 'a']), (['H', 'a', 'i', 'k', 'u'], ['h', 'a', 'i', 'k', 'u']), (['H', 'e', 'l', 'e', 'n', 'O', 'S'], ['h', 'e', 'l', 'e', 'n', 'o', 's']), (['H', 'e', 'r', 'm', 'i', 't'], ['h', 'e', 'r', 'm', 'i', 't']), (['H', 'o', 'r', 'i', 'z', 'o', 'n'], ['h', 'o', 'r', 'i', 'z', 'o', 'n']), (['H', 'u', 'r', 'd'], ['h', 'u', 'r', 'd']), (['I', 'l', 'l', 'u', 'm', 'O', 'S'], ['i', 'l', 'l', 'u', 'm', 'o', 's']), (['i', 'O', 'S'], ['i', 'o', 's']), (['L', '4', 'r', 'e'], ['l', '4', 'r', 'e']), (['L', 'i', 'n', 'u', 'x'], ['l', 'i', 'n', 'u', 'x']), (['L', 'y', 'n', 'x', 'o', 's', '1', '7', '8'], ['l', 'y', 'n', 'x', 'o', 's', '1', '7', '8']), (['M', 'a', 'c', 'O', 'S'], ['m', 'a', 'c', 'o', 's']), (['M', 'a', 'n', 'a', 'g', 'a', 'r', 'm'], ['m', 'a', 'n', 'a', 'g', 'a', 'r', 'm']), (['M', 'o', 't', 'o', 'r'], ['m', 'o', 't', 'o', 'r']), (['N', 'e', 't', 'B', 'S', 'D'], ['n', 'e', 't', 'b', 's', 'd']), (['N', 'o', 'n', 'e'], ['n', 'o', 'n', 'e']), (['N', 't', 'o'], ['n', 't', 'o']), (['N', 'u', 't', 't', 'x'], ['n', 'u', 't', 't', 'x']), (['O', 'p', 'e', 'n', 'B', 'S', 'D'], ['o', 'p', 'e', 'n', 'b', 's', 'd']), (['P', 's', 'p'], ['p', 's', 'p']), (['P', 's', 'x'], ['p', 's', 'x']), (['Q', 'n', 'x'], ['q', 'n', 'x']), (['Q', 'u', 'r', 't'], ['q', 'u', 'r', 't']), (['R', 'e', 'd', 'o', 'x'], ['r', 'e', 'd', 'o', 'x']), (['R', 't', 'e', 'm', 's'], ['r', 't', 'e', 'm', 's']), (['S', 'o', 'l', 'a', 'r', 'i', 's'], ['s', 'o', 'l', 'a', 'r', 'i', 's']), (['S', 'o', 'l', 'i', 'd', 'A', 's', 'p', '3'], ['s', 'o', 'l', 'i', 'd', '_', 'a', 's', 'p', '3']), (['T', 'e', 'e', 'O', 'S'], ['t', 'e', 'e', 'o', 's']), (['T', 'r', 'u', 's', 't', 'y'], ['t', 'r', 'u', 's', 't', 'y']), (['T', 'v', 'O', 'S'], ['t', 'v', 'o', 's']), (['U', 'e', 'f', 'i'], ['u', 'e', 'f', 'i']), (['U', 'n', 'k', 'n', 'o', 'w', 'n'], ['u', 'n', 'k', 'n', 'o', 'w', 'n']), (['V', 'e', 'x', 'O', 'S'], ['v', 'e', 'x', 'o', 's']), (['V', 'i', 's', 'i', 'o', 'n', 'O', 'S'], ['v', 'i', 's', 'i', 'o', 'n', 'o', 's']), (['V', 'i', 't', 'a'], ['v', 'i', 't', 'a']), (['V', 'x', 'W', 'o', 'r', 'k', 's'], ['v', 'x', 'w', 'o', 'r', 'k', 's']), (['W', 'a', 's', 'i'], ['w', 'a', 's', 'i']), (['W', 'a', 't', 'c', 'h', 'O', 'S'], ['w', 'a', 't', 'c', 'h', 'o', 's']), (['W', 'i', 'n', 'd', 'o', 'w', 's'], ['w', 'i', 'n', 'd', 'o', 'w', 's']), (['X', 'o', 'u', 's'], ['x', 'o', 'u', 's']), (['Z', 'k', 'v', 'm'], ['z', 'k', 'v', 'm'])]

/-- `platforms/src/target/env.rs:78-99`: the variants, and the text of each. -/
def committedEnv : List (Str × Str) := [(['N', 'o', 'n', 'e'], []), (['G', 'n', 'u'], ['g', 'n', 'u']), (['M', 'a', 'c', 'a', 'b', 'i'], ['m', 'a', 'c', 'a', 'b', 'i']), (['M', 'l', 'i', 'b', 'c'], ['m', 'l', 'i', 'b', 'c']), (['M', 's', 'v', 'c'], ['m', 's', 'v', 'c']), (['M', 'u', 's', 'l'], ['m', 'u', 's', 'l']), (['N', 'e', 'w', 'l', 'i', 'b'], ['n', 'e', 'w', 'l', 'i', 'b']), (['N', 't', 'o', '7', '0'], ['n', 't', 'o', '7', '0']), (['N', 't', 'o', '7', '1'], ['n', 't', 'o', '7', '1']), (['N', 't', 'o', '7', '1', 'I', 'o', 's', 'o', 'c', 'k'], ['n', 't', 'o', '7', '1', '_', 'i', 'o', 's', 'o', 'c', 'k']), (['O', 'h', 'O', 'S'], ['o', 'h', 'o', 's']), (['P', '1'], ['p', '1']), (['P', '2'], ['p', '2']), (['P', '3'], ['p', '3']), (['R', 'e', 'l', 'i', 'b', 'c'], ['r', 'e', 'l', 'i', 'b', 'c']), (['S', 'g', 'x'], ['s', 'g', 'x']), (['S', 'i', 'm'], ['s', 'i', 'm']), (['U', 'C', 'l', 'i', 'b', 'c'], ['u', 'c', 'l', 'i', 'b', 'c']), (['V', '5'], ['v', '5'])]

/-- `platforms/src/target/endian.rs:23-27`: the variants, and the text of each. -/
def committedEndian : List (Str × Str) := [(['B', 'i', 'g'], ['b', 'i', 'g']), (['L', 'i', 't', 't', 'l', 'e'], ['l', 'i', 't', 't', 'l', 'e'])]

/-- `platforms/src/target/pointer_width.rs:28-33`: the variants, and the text of each. -/
def committedPointerWidth : List (Str × Str) := [(['U', '1', '6'], ['1', '6']), (['U', '3', '2'], ['3', '2']), (['U', '6', '4'], ['6', '4'])]

end Verif.PlatGen

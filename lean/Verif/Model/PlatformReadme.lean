import Verif.Model.Str

/-!
# The tables in the README

Generated by `tools/gen_platform_readme.py` from `/repo/platforms/README.md`; do not edit.
-/

namespace Verif.PlatGen

/-- `platforms/README.md:63-87`. -/
def readme0 : List Str := [
  ['#', '#', '#', ' ', 'T', 'i', 'e', 'r', ' ', '1'],
  [],
  ['|', ' ', 't', 'a', 'r', 'g', 'e', 't', ' ', 't', 'r', 'i', 'p', 'l', 'e', ' ', ' ', ' ', ' ', ' ', ' ', ' ', ' ', ' ', ' ', ' ', ' ', ' ', ' ', ' ', ' ', ' ', ' ', ' ', ' ', ' ', ' ', ' ', ' ', ' ', ' ', '|', ' ', 't', 'a', 'r', 'g', 'e', 't', '_', 'a', 'r', 'c', 'h', ' ', '|', ' ', 't', 'a', 'r', 'g', 'e', 't', '_', 'o', 's', ' ', ' ', '|', ' ', 't', 'a', 'r', 'g', 'e', 't', '_', 'e', 'n', 'v', ' ', '|'],
  ['|', '-', '-', '-', '-', '-', '-', '-', '-', '-', '-', '-', '-', '-', '-', '-', '-', '-', '-', '-', '-', '-', '-', '-', '-', '-', '-', '-', '-', '-', '-', '-', '-', '-', '-', '-', '-', '-', '-', '-', '-', '|', '-', '-', '-', '-', '-', '-', '-', '-', '-', '-', '-', '-', '-', '|', '-', '-', '-', '-', '-', '-', '-', '-', '-', '-', '-', '-', '|', '-', '-', '-', '-', '-', '-', '-', '-', '-', '-', '-', '-', '|'],
  ['|', ' ', '[', 'a', 'a', 'r', 'c', 'h', '6', '4', '-', 'a', 'p', 'p', 'l', 'e', '-', 'd', 'a', 'r', 'w', 'i', 'n', ']', ' ', ' ', ' ', ' ', ' ', ' ', ' ', ' ', ' ', ' ', ' ', ' ', ' ', ' ', ' ', ' ', ' ', '|', ' ', 'a', 'a', 'r', 'c', 'h', '6', '4', ' ', ' ', ' ', ' ', ' ', '|', ' ', 'm', 'a', 'c', 'o', 's', ' ', ' ', ' ', ' ', ' ', ' ', '|', ' ', ' ', ' ', ' ', ' ', ' ', ' ', ' ', ' ', ' ', ' ', ' ', '|'],
  ['|', ' ', '[', 'a', 'a', 'r', 'c', 'h', '6', '4', '-', 'p', 'c', '-', 'w', 'i', 'n', 'd', 'o', 'w', 's', '-', 'm', 's', 'v', 'c', ']', ' ', ' ', ' ', ' ', ' ', ' ', ' ', ' ', ' ', ' ', ' ', ' ', ' ', ' ', '|', ' ', 'a', 'a', 'r', 'c', 'h', '6', '4', ' ', ' ', ' ', ' ', ' ', '|', ' ', 'w', 'i', 'n', 'd', 'o', 'w', 's', ' ', ' ', ' ', ' ', '|', ' ', 'm', 's', 'v', 'c', ' ', ' ', ' ', ' ', ' ', ' ', ' ', '|'],
  ['|', ' ', '[', 'a', 'a', 'r', 'c', 'h', '6', '4', '-', 'u', 'n', 'k', 'n', 'o', 'w', 'n', '-', 'l', 'i', 'n', 'u', 'x', '-', 'g', 'n', 'u', ']', ' ', ' ', ' ', ' ', ' ', ' ', ' ', ' ', ' ', ' ', ' ', ' ', '|', ' ', 'a', 'a', 'r', 'c', 'h', '6', '4', ' ', ' ', ' ', ' ', ' ', '|', ' ', 'l', 'i', 'n', 'u', 'x', ' ', ' ', ' ', ' ', ' ', ' ', '|', ' ', 'g', 'n', 'u', ' ', ' ', ' ', ' ', ' ', ' ', ' ', ' ', '|'],
  ['|', ' ', '[', 'i', '6', '8', '6', '-', 'p', 'c', '-', 'w', 'i', 'n', 'd', 'o', 'w', 's', '-', 'm', 's', 'v', 'c', ']', ' ', ' ', ' ', ' ', ' ', ' ', ' ', ' ', ' ', ' ', ' ', ' ', ' ', ' ', ' ', ' ', ' ', '|', ' ', 'x', '8', '6', ' ', ' ', ' ', ' ', ' ', ' ', ' ', ' ', ' ', '|', ' ', 'w', 'i', 'n', 'd', 'o', 'w', 's', ' ', ' ', ' ', ' ', '|', ' ', 'm', 's', 'v', 'c', ' ', ' ', ' ', ' ', ' ', ' ', ' ', '|'],
  ['|', ' ', '[', 'i', '6', '8', '6', '-', 'u', 'n', 'k', 'n', 'o', 'w', 'n', '-', 'l', 'i', 'n', 'u', 'x', '-', 'g', 'n', 'u', ']', ' ', ' ', ' ', ' ', ' ', ' ', ' ', ' ', ' ', ' ', ' ', ' ', ' ', ' ', ' ', '|', ' ', 'x', '8', '6', ' ', ' ', ' ', ' ', ' ', ' ', ' ', ' ', ' ', '|', ' ', 'l', 'i', 'n', 'u', 'x', ' ', ' ', ' ', ' ', ' ', ' ', '|', ' ', 'g', 'n', 'u', ' ', ' ', ' ', ' ', ' ', ' ', ' ', ' ', '|'],
  ['|', ' ', '[', 'x', '8', '6', '_', '6', '4', '-', 'p', 'c', '-', 'w', 'i', 'n', 'd', 'o', 'w', 's', '-', 'g', 'n', 'u', ']', ' ', ' ', ' ', ' ', ' ', ' ', ' ', ' ', ' ', ' ', ' ', ' ', ' ', ' ', ' ', ' ', '|', ' ', 'x', '8', '6', '_', '6', '4', ' ', ' ', ' ', ' ', ' ', ' ', '|', ' ', 'w', 'i', 'n', 'd', 'o', 'w', 's', ' ', ' ', ' ', ' ', '|', ' ', 'g', 'n', 'u', ' ', ' ', ' ', ' ', ' ', ' ', ' ', ' ', '|'],
  ['|', ' ', '[', 'x', '8', '6', '_', '6', '4', '-', 'p', 'c', '-', 'w', 'i', 'n', 'd', 'o', 'w', 's', '-', 'm', 's', 'v', 'c', ']', ' ', ' ', ' ', ' ', ' ', ' ', ' ', ' ', ' ', ' ', ' ', ' ', ' ', ' ', ' ', '|', ' ', 'x', '8', '6', '_', '6', '4', ' ', ' ', ' ', ' ', ' ', ' ', '|', ' ', 'w', 'i', 'n', 'd', 'o', 'w', 's', ' ', ' ', ' ', ' ', '|', ' ', 'm', 's', 'v', 'c', ' ', ' ', ' ', ' ', ' ', ' ', ' ', '|'],
  ['|', ' ', '[', 'x', '8', '6', '_', '6', '4', '-', 'u', 'n', 'k', 'n', 'o', 'w', 'n', '-', 'l', 'i', 'n', 'u', 'x', '-', 'g', 'n', 'u', ']', ' ', ' ', ' ', ' ', ' ', ' ', ' ', ' ', ' ', ' ', ' ', ' ', ' ', '|', ' ', 'x', '8', '6', '_', '6', '4', ' ', ' ', ' ', ' ', ' ', ' ', '|', ' ', 'l', 'i', 'n', 'u', 'x', ' ', ' ', ' ', ' ', ' ', ' ', '|', ' ', 'g', 'n', 'u', ' ', ' ', ' ', ' ', ' ', ' ', ' ', ' ', '|'],
  [],
  ['#', '#', '#', ' ', 'T', 'i', 'e', 'r', ' ', '2'],
  [],
  ['|', ' ', 't', 'a', 'r', 'g', 'e', 't', ' ', 't', 'r', 'i', 'p', 'l', 'e', ' ', ' ', ' ', ' ', ' ', ' ', ' ', ' ', ' ', ' ', ' ', ' ', ' ', ' ', ' ', ' ', ' ', ' ', ' ', ' ', ' ', ' ', ' ', ' ', ' ', ' ', '|', ' ', 't', 'a', 'r', 'g', 'e', 't', '_', 'a', 'r', 'c', 'h', ' ', '|', ' ', 't', 'a', 'r', 'g', 'e', 't', '_', 'o', 's', ' ', ' ', '|', ' ', 't', 'a', 'r', 'g', 'e', 't', '_', 'e', 'n', 'v', ' ', '|'],
  ['|', '-', '-', '-', '-', '-', '-', '-', '-', '-', '-', '-', '-', '-', '-', '-', '-', '-', '-', '-', '-', '-', '-', '-', '-', '-', '-', '-', '-', '-', '-', '-', '-', '-', '-', '-', '-', '-', '-', '-', '-', '|', '-', '-', '-', '-', '-', '-', '-', '-', '-', '-', '-', '-', '-', '|', '-', '-', '-', '-', '-', '-', '-', '-', '-', '-', '-', '-', '|', '-', '-', '-', '-', '-', '-', '-', '-', '-', '-', '-', '-', '|'],
  ['|', ' ', '[', 'a', 'a', 'r', 'c', 'h', '6', '4', '-', 'a', 'p', 'p', 'l', 'e', '-', 'i', 'o', 's', ']', ' ', ' ', ' ', ' ', ' ', ' ', ' ', ' ', ' ', ' ', ' ', ' ', ' ', ' ', ' ', ' ', ' ', ' ', ' ', ' ', '|', ' ', 'a', 'a', 'r', 'c', 'h', '6', '4', ' ', ' ', ' ', ' ', ' ', '|', ' ', 'i', 'o', 's', ' ', ' ', ' ', ' ', ' ', ' ', ' ', ' ', '|', ' ', ' ', ' ', ' ', ' ', ' ', ' ', ' ', ' ', ' ', ' ', ' ', '|'],
  ['|', ' ', '[', 'a', 'a', 'r', 'c', 'h', '6', '4', '-', 'a', 'p', 'p', 'l', 'e', '-', 'i', 'o', 's', '-', 'm', 'a', 'c', 'a', 'b', 'i', ']', ' ', ' ', ' ', ' ', ' ', ' ', ' ', ' ', ' ', ' ', ' ', ' ', ' ', '|', ' ', 'a', 'a', 'r', 'c', 'h', '6', '4', ' ', ' ', ' ', ' ', ' ', '|', ' ', 'i', 'o', 's', ' ', ' ', ' ', ' ', ' ', ' ', ' ', ' ', '|', ' ', 'm', 'a', 'c', 'a', 'b', 'i', ' ', ' ', ' ', ' ', ' ', '|'],
  ['|', ' ', '[', 'a', 'a', 'r', 'c', 'h', '6', '4', '-', 'a', 'p', 'p', 'l', 'e', '-', 'i', 'o', 's', '-', 's', 'i', 'm', ']', ' ', ' ', ' ', ' ', ' ', ' ', ' ', ' ', ' ', ' ', ' ', ' ', ' ', ' ', ' ', ' ', '|', ' ', 'a', 'a', 'r', 'c', 'h', '6', '4', ' ', ' ', ' ', ' ', ' ', '|', ' ', 'i', 'o', 's', ' ', ' ', ' ', ' ', ' ', ' ', ' ', ' ', '|', ' ', 's', 'i', 'm', ' ', ' ', ' ', ' ', ' ', ' ', ' ', ' ', '|'],
  ['|', ' ', '[', 'a', 'a', 'r', 'c', 'h', '6', '4', '-', 'a', 'p', 'p', 'l', 'e', '-', 't', 'v', 'o', 's', ']', ' ', ' ', ' ', ' ', ' ', ' ', ' ', ' ', ' ', ' ', ' ', ' ', ' ', ' ', ' ', ' ', ' ', ' ', ' ', '|', ' ', 'a', 'a', 'r', 'c', 'h', '6', '4', ' ', ' ', ' ', ' ', ' ', '|', ' ', 't', 'v', 'o', 's', ' ', ' ', ' ', ' ', ' ', ' ', ' ', '|', ' ', ' ', ' ', ' ', ' ', ' ', ' ', ' ', ' ', ' ', ' ', ' ', '|'],
  ['|', ' ', '[', 'a', 'a', 'r', 'c', 'h', '6', '4', '-', 'a', 'p', 'p', 'l', 'e', '-', 't', 'v', 'o', 's', '-', 's', 'i', 'm', ']', ' ', ' ', ' ', ' ', ' ', ' ', ' ', ' ', ' ', ' ', ' ', ' ', ' ', ' ', ' ', '|', ' ', 'a', 'a', 'r', 'c', 'h', '6', '4', ' ', ' ', ' ', ' ', ' ', '|', ' ', 't', 'v', 'o', 's', ' ', ' ', ' ', ' ', ' ', ' ', ' ', '|', ' ', 's', 'i', 'm', ' ', ' ', ' ', ' ', ' ', ' ', ' ', ' ', '|'],
  ['|', ' ', '[', 'a', 'a', 'r', 'c', 'h', '6', '4', '-', 'a', 'p', 'p', 'l', 'e', '-', 'v', 'i', 's', 'i', 'o', 'n', 'o', 's', ']', ' ', ' ', ' ', ' ', ' ', ' ', ' ', ' ', ' ', ' ', ' ', ' ', ' ', ' ', ' ', '|', ' ', 'a', 'a', 'r', 'c', 'h', '6', '4', ' ', ' ', ' ', ' ', ' ', '|', ' ', 'v', 'i', 's', 'i', 'o', 'n', 'o', 's', ' ', ' ', ' ', '|', ' ', ' ', ' ', ' ', ' ', ' ', ' ', ' ', ' ', ' ', ' ', ' ', '|'],
  ['|', ' ', '[', 'a', 'a', 'r', 'c', 'h', '6', '4', '-', 'a', 'p', 'p', 'l', 'e', '-', 'v', 'i', 's', 'i', 'o', 'n', 'o', 's', '-', 's', 'i', 'm', ']', ' ', ' ', ' ', ' ', ' ', ' ', ' ', ' ', ' ', ' ', ' ', '|', ' ', 'a', 'a', 'r', 'c', 'h', '6', '4', ' ', ' ', ' ', ' ', ' ', '|', ' ', 'v', 'i', 's', 'i', 'o', 'n', 'o', 's', ' ', ' ', ' ', '|', ' ', 's', 'i', 'm', ' ', ' ', ' ', ' ', ' ', ' ', ' ', ' ', '|'],
  ['|', ' ', '[', 'a', 'a', 'r', 'c', 'h', '6', '4', '-', 'a', 'p', 'p', 'l', 'e', '-', 'w', 'a', 't', 'c', 'h', 'o', 's', ']', ' ', ' ', ' ', ' ', ' ', ' ', ' ', ' ', ' ', ' ', ' ', ' ', ' ', ' ', ' ', ' ', '|', ' ', 'a', 'a', 'r', 'c', 'h', '6', '4', ' ', ' ', ' ', ' ', ' ', '|', ' ', 'w', 'a', 't', 'c', 'h', 'o', 's', ' ', ' ', ' ', ' ', '|', ' ', ' ', ' ', ' ', ' ', ' ', ' ', ' ', ' ', ' ', ' ', ' ', '|']]

/-- `platforms/README.md:88-112`. -/
def readme1 : List Str := [
  ['|', ' ', '[', 'a', 'a', 'r', 'c', 'h', '6', '4', '-', 'a', 'p', 'p', 'l', 'e', '-', 'w', 'a', 't', 'c', 'h', 'o', 's', '-', 's', 'i', 'm', ']', ' ', ' ', ' ', ' ', ' ', ' ', ' ', ' ', ' ', ' ', ' ', ' ', '|', ' ', 'a', 'a', 'r', 'c', 'h', '6', '4', ' ', ' ', ' ', ' ', ' ', '|', ' ', 'w', 'a', 't', 'c', 'h', 'o', 's', ' ', ' ', ' ', ' ', '|', ' ', 's', 'i', 'm', ' ', ' ', ' ', ' ', ' ', ' ', ' ', ' ', '|'],
  ['|', ' ', '[', 'a', 'a', 'r', 'c', 'h', '6', '4', '-', 'l', 'i', 'n', 'u', 'x', '-', 'a', 'n', 'd', 'r', 'o', 'i', 'd', ']', ' ', ' ', ' ', ' ', ' ', ' ', ' ', ' ', ' ', ' ', ' ', ' ', ' ', ' ', ' ', ' ', '|', ' ', 'a', 'a', 'r', 'c', 'h', '6', '4', ' ', ' ', ' ', ' ', ' ', '|', ' ', 'a', 'n', 'd', 'r', 'o', 'i', 'd', ' ', ' ', ' ', ' ', '|', ' ', ' ', ' ', ' ', ' ', ' ', ' ', ' ', ' ', ' ', ' ', ' ', '|'],
  ['|', ' ', '[', 'a', 'a', 'r', 'c', 'h', '6', '4', '-', 'p', 'c', '-', 'w', 'i', 'n', 'd', 'o', 'w', 's', '-', 'g', 'n', 'u', 'l', 'l', 'v', 'm', ']', ' ', ' ', ' ', ' ', ' ', ' ', ' ', ' ', ' ', ' ', ' ', '|', ' ', 'a', 'a', 'r', 'c', 'h', '6', '4', ' ', ' ', ' ', ' ', ' ', '|', ' ', 'w', 'i', 'n', 'd', 'o', 'w', 's', ' ', ' ', ' ', ' ', '|', ' ', 'g', 'n', 'u', ' ', ' ', ' ', ' ', ' ', ' ', ' ', ' ', '|'],
  ['|', ' ', '[', 'a', 'a', 'r', 'c', 'h', '6', '4', '-', 'u', 'n', 'k', 'n', 'o', 'w', 'n', '-', 'f', 'r', 'e', 'e', 'b', 's', 'd', ']', ' ', ' ', ' ', ' ', ' ', ' ', ' ', ' ', ' ', ' ', ' ', ' ', ' ', ' ', '|', ' ', 'a', 'a', 'r', 'c', 'h', '6', '4', ' ', ' ', ' ', ' ', ' ', '|', ' ', 'f', 'r', 'e', 'e', 'b', 's', 'd', ' ', ' ', ' ', ' ', '|', ' ', ' ', ' ', ' ', ' ', ' ', ' ', ' ', ' ', ' ', ' ', ' ', '|'],
  ['|', ' ', '[', 'a', 'a', 'r', 'c', 'h', '6', '4', '-', 'u', 'n', 'k', 'n', 'o', 'w', 'n', '-', 'f', 'u', 'c', 'h', 's', 'i', 'a', ']', ' ', ' ', ' ', ' ', ' ', ' ', ' ', ' ', ' ', ' ', ' ', ' ', ' ', ' ', '|', ' ', 'a', 'a', 'r', 'c', 'h', '6', '4', ' ', ' ', ' ', ' ', ' ', '|', ' ', 'f', 'u', 'c', 'h', 's', 'i', 'a', ' ', ' ', ' ', ' ', '|', ' ', ' ', ' ', ' ', ' ', ' ', ' ', ' ', ' ', ' ', ' ', ' ', '|'],
  ['|', ' ', '[', 'a', 'a', 'r', 'c', 'h', '6', '4', '-', 'u', 'n', 'k', 'n', 'o', 'w', 'n', '-', 'l', 'i', 'n', 'u', 'x', '-', 'm', 'u', 's', 'l', ']', ' ', ' ', ' ', ' ', ' ', ' ', ' ', ' ', ' ', ' ', ' ', '|', ' ', 'a', 'a', 'r', 'c', 'h', '6', '4', ' ', ' ', ' ', ' ', ' ', '|', ' ', 'l', 'i', 'n', 'u', 'x', ' ', ' ', ' ', ' ', ' ', ' ', '|', ' ', 'm', 'u', 's', 'l', ' ', ' ', ' ', ' ', ' ', ' ', ' ', '|'],
  ['|', ' ', '[', 'a', 'a', 'r', 'c', 'h', '6', '4', '-', 'u', 'n', 'k', 'n', 'o', 'w', 'n', '-', 'l', 'i', 'n', 'u', 'x', '-', 'o', 'h', 'o', 's', ']', ' ', ' ', ' ', ' ', ' ', ' ', ' ', ' ', ' ', ' ', ' ', '|', ' ', 'a', 'a', 'r', 'c', 'h', '6', '4', ' ', ' ', ' ', ' ', ' ', '|', ' ', 'l', 'i', 'n', 'u', 'x', ' ', ' ', ' ', ' ', ' ', ' ', '|', ' ', 'o', 'h', 'o', 's', ' ', ' ', ' ', ' ', ' ', ' ', ' ', '|'],
  ['|', ' ', '[', 'a', 'a', 'r', 'c', 'h', '6', '4', '-', 'u', 'n', 'k', 'n', 'o', 'w', 'n', '-', 'n', 'o', 'n', 'e', ']', ' ', ' ', ' ', ' ', ' ', ' ', ' ', ' ', ' ', ' ', ' ', ' ', ' ', ' ', ' ', ' ', ' ', '|', ' ', 'a', 'a', 'r', 'c', 'h', '6', '4', ' ', ' ', ' ', ' ', ' ', '|', ' ', 'n', 'o', 'n', 'e', ' ', ' ', ' ', ' ', ' ', ' ', ' ', '|', ' ', ' ', ' ', ' ', ' ', ' ', ' ', ' ', ' ', ' ', ' ', ' ', '|'],
  ['|', ' ', '[', 'a', 'a', 'r', 'c', 'h', '6', '4', '-', 'u', 'n', 'k', 'n', 'o', 'w', 'n', '-', 'n', 'o', 'n', 'e', '-', 's', 'o', 'f', 't', 'f', 'l', 'o', 'a', 't', ']', ' ', ' ', ' ', ' ', ' ', ' ', ' ', '|', ' ', 'a', 'a', 'r', 'c', 'h', '6', '4', ' ', ' ', ' ', ' ', ' ', '|', ' ', 'n', 'o', 'n', 'e', ' ', ' ', ' ', ' ', ' ', ' ', ' ', '|', ' ', ' ', ' ', ' ', ' ', ' ', ' ', ' ', ' ', ' ', ' ', ' ', '|'],
  ['|', ' ', '[', 'a', 'a', 'r', 'c', 'h', '6', '4', '-', 'u', 'n', 'k', 'n', 'o', 'w', 'n', '-', 'u', 'e', 'f', 'i', ']', ' ', ' ', ' ', ' ', ' ', ' ', ' ', ' ', ' ', ' ', ' ', ' ', ' ', ' ', ' ', ' ', ' ', '|', ' ', 'a', 'a', 'r', 'c', 'h', '6', '4', ' ', ' ', ' ', ' ', ' ', '|', ' ', 'u', 'e', 'f', 'i', ' ', ' ', ' ', ' ', ' ', ' ', ' ', '|', ' ', ' ', ' ', ' ', ' ', ' ', ' ', ' ', ' ', ' ', ' ', ' ', '|'],
  ['|', ' ', '[', 'a', 'r', 'm', '-', 'l', 'i', 'n', 'u', 'x', '-', 'a', 'n', 'd', 'r', 'o', 'i', 'd', 'e', 'a', 'b', 'i', ']', ' ', ' ', ' ', ' ', ' ', ' ', ' ', ' ', ' ', ' ', ' ', ' ', ' ', ' ', ' ', ' ', '|', ' ', 'a', 'r', 'm', ' ', ' ', ' ', ' ', ' ', ' ', ' ', ' ', ' ', '|', ' ', 'a', 'n', 'd', 'r', 'o', 'i', 'd', ' ', ' ', ' ', ' ', '|', ' ', ' ', ' ', ' ', ' ', ' ', ' ', ' ', ' ', ' ', ' ', ' ', '|'],
  ['|', ' ', '[', 'a', 'r', 'm', '-', 'u', 'n', 'k', 'n', 'o', 'w', 'n', '-', 'l', 'i', 'n', 'u', 'x', '-', 'g', 'n', 'u', 'e', 'a', 'b', 'i', ']', ' ', ' ', ' ', ' ', ' ', ' ', ' ', ' ', ' ', ' ', ' ', ' ', '|', ' ', 'a', 'r', 'm', ' ', ' ', ' ', ' ', ' ', ' ', ' ', ' ', ' ', '|', ' ', 'l', 'i', 'n', 'u', 'x', ' ', ' ', ' ', ' ', ' ', ' ', '|', ' ', 'g', 'n', 'u', ' ', ' ', ' ', ' ', ' ', ' ', ' ', ' ', '|'],
  ['|', ' ', '[', 'a', 'r', 'm', '-', 'u', 'n', 'k', 'n', 'o', 'w', 'n', '-', 'l', 'i', 'n', 'u', 'x', '-', 'g', 'n', 'u', 'e', 'a', 'b', 'i', 'h', 'f', ']', ' ', ' ', ' ', ' ', ' ', ' ', ' ', ' ', ' ', ' ', '|', ' ', 'a', 'r', 'm', ' ', ' ', ' ', ' ', ' ', ' ', ' ', ' ', ' ', '|', ' ', 'l', 'i', 'n', 'u', 'x', ' ', ' ', ' ', ' ', ' ', ' ', '|', ' ', 'g', 'n', 'u', ' ', ' ', ' ', ' ', ' ', ' ', ' ', ' ', '|'],
  ['|', ' ', '[', 'a', 'r', 'm', '-', 'u', 'n', 'k', 'n', 'o', 'w', 'n', '-', 'l', 'i', 'n', 'u', 'x', '-', 'm', 'u', 's', 'l', 'e', 'a', 'b', 'i', ']', ' ', ' ', ' ', ' ', ' ', ' ', ' ', ' ', ' ', ' ', ' ', '|', ' ', 'a', 'r', 'm', ' ', ' ', ' ', ' ', ' ', ' ', ' ', ' ', ' ', '|', ' ', 'l', 'i', 'n', 'u', 'x', ' ', ' ', ' ', ' ', ' ', ' ', '|', ' ', 'm', 'u', 's', 'l', ' ', ' ', ' ', ' ', ' ', ' ', ' ', '|'],
  ['|', ' ', '[', 'a', 'r', 'm', '-', 'u', 'n', 'k', 'n', 'o', 'w', 'n', '-', 'l', 'i', 'n', 'u', 'x', '-', 'm', 'u', 's', 'l', 'e', 'a', 'b', 'i', 'h', 'f', ']', ' ', ' ', ' ', ' ', ' ', ' ', ' ', ' ', ' ', '|', ' ', 'a', 'r', 'm', ' ', ' ', ' ', ' ', ' ', ' ', ' ', ' ', ' ', '|', ' ', 'l', 'i', 'n', 'u', 'x', ' ', ' ', ' ', ' ', ' ', ' ', '|', ' ', 'm', 'u', 's', 'l', ' ', ' ', ' ', ' ', ' ', ' ', ' ', '|'],
  ['|', ' ', '[', 'a', 'r', 'm', '6', '4', 'e', 'c', '-', 'p', 'c', '-', 'w', 'i', 'n', 'd', 'o', 'w', 's', '-', 'm', 's', 'v', 'c', ']', ' ', ' ', ' ', ' ', ' ', ' ', ' ', ' ', ' ', ' ', ' ', ' ', ' ', ' ', '|', ' ', 'a', 'r', 'm', '6', '4', 'e', 'c', ' ', ' ', ' ', ' ', ' ', '|', ' ', 'w', 'i', 'n', 'd', 'o', 'w', 's', ' ', ' ', ' ', ' ', '|', ' ', 'm', 's', 'v', 'c', ' ', ' ', ' ', ' ', ' ', ' ', ' ', '|'],
  ['|', ' ', '[', 'a', 'r', 'm', 'v', '5', 't', 'e', '-', 'u', 'n', 'k', 'n', 'o', 'w', 'n', '-', 'l', 'i', 'n', 'u', 'x', '-', 'g', 'n', 'u', 'e', 'a', 'b', 'i', ']', ' ', ' ', ' ', ' ', ' ', ' ', ' ', ' ', '|', ' ', 'a', 'r', 'm', ' ', ' ', ' ', ' ', ' ', ' ', ' ', ' ', ' ', '|', ' ', 'l', 'i', 'n', 'u', 'x', ' ', ' ', ' ', ' ', ' ', ' ', '|', ' ', 'g', 'n', 'u', ' ', ' ', ' ', ' ', ' ', ' ', ' ', ' ', '|'],
  ['|', ' ', '[', 'a', 'r', 'm', 'v', '5', 't', 'e', '-', 'u', 'n', 'k', 'n', 'o', 'w', 'n', '-', 'l', 'i', 'n', 'u', 'x', '-', 'm', 'u', 's', 'l', 'e', 'a', 'b', 'i', ']', ' ', ' ', ' ', ' ', ' ', ' ', ' ', '|', ' ', 'a', 'r', 'm', ' ', ' ', ' ', ' ', ' ', ' ', ' ', ' ', ' ', '|', ' ', 'l', 'i', 'n', 'u', 'x', ' ', ' ', ' ', ' ', ' ', ' ', '|', ' ', 'm', 'u', 's', 'l', ' ', ' ', ' ', ' ', ' ', ' ', ' ', '|'],
  ['|', ' ', '[', 'a', 'r', 'm', 'v', '7', '-', 'l', 'i', 'n', 'u', 'x', '-', 'a', 'n', 'd', 'r', 'o', 'i', 'd', 'e', 'a', 'b', 'i', ']', ' ', ' ', ' ', ' ', ' ', ' ', ' ', ' ', ' ', ' ', ' ', ' ', ' ', ' ', '|', ' ', 'a', 'r', 'm', ' ', ' ', ' ', ' ', ' ', ' ', ' ', ' ', ' ', '|', ' ', 'a', 'n', 'd', 'r', 'o', 'i', 'd', ' ', ' ', ' ', ' ', '|', ' ', ' ', ' ', ' ', ' ', ' ', ' ', ' ', ' ', ' ', ' ', ' ', '|'],
  ['|', ' ', '[', 'a', 'r', 'm', 'v', '7', '-', 'u', 'n', 'k', 'n', 'o', 'w', 'n', '-', 'l', 'i', 'n', 'u', 'x', '-', 'g', 'n', 'u', 'e', 'a', 'b', 'i', ']', ' ', ' ', ' ', ' ', ' ', ' ', ' ', ' ', ' ', ' ', '|', ' ', 'a', 'r', 'm', ' ', ' ', ' ', ' ', ' ', ' ', ' ', ' ', ' ', '|', ' ', 'l', 'i', 'n', 'u', 'x', ' ', ' ', ' ', ' ', ' ', ' ', '|', ' ', 'g', 'n', 'u', ' ', ' ', ' ', ' ', ' ', ' ', ' ', ' ', '|'],
  ['|', ' ', '[', 'a', 'r', 'm', 'v', '7', '-', 'u', 'n', 'k', 'n', 'o', 'w', 'n', '-', 'l', 'i', 'n', 'u', 'x', '-', 'g', 'n', 'u', 'e', 'a', 'b', 'i', 'h', 'f', ']', ' ', ' ', ' ', ' ', ' ', ' ', ' ', ' ', '|', ' ', 'a', 'r', 'm', ' ', ' ', ' ', ' ', ' ', ' ', ' ', ' ', ' ', '|', ' ', 'l', 'i', 'n', 'u', 'x', ' ', ' ', ' ', ' ', ' ', ' ', '|', ' ', 'g', 'n', 'u', ' ', ' ', ' ', ' ', ' ', ' ', ' ', ' ', '|'],
  ['|', ' ', '[', 'a', 'r', 'm', 'v', '7', '-', 'u', 'n', 'k', 'n', 'o', 'w', 'n', '-', 'l', 'i', 'n', 'u', 'x', '-', 'm', 'u', 's', 'l', 'e', 'a', 'b', 'i', ']', ' ', ' ', ' ', ' ', ' ', ' ', ' ', ' ', ' ', '|', ' ', 'a', 'r', 'm', ' ', ' ', ' ', ' ', ' ', ' ', ' ', ' ', ' ', '|', ' ', 'l', 'i', 'n', 'u', 'x', ' ', ' ', ' ', ' ', ' ', ' ', '|', ' ', 'm', 'u', 's', 'l', ' ', ' ', ' ', ' ', ' ', ' ', ' ', '|'],
  ['|', ' ', '[', 'a', 'r', 'm', 'v', '7', '-', 'u', 'n', 'k', 'n', 'o', 'w', 'n', '-', 'l', 'i', 'n', 'u', 'x', '-', 'm', 'u', 's', 'l', 'e', 'a', 'b', 'i', 'h', 'f', ']', ' ', ' ', ' ', ' ', ' ', ' ', ' ', '|', ' ', 'a', 'r', 'm', ' ', ' ', ' ', ' ', ' ', ' ', ' ', ' ', ' ', '|', ' ', 'l', 'i', 'n', 'u', 'x', ' ', ' ', ' ', ' ', ' ', ' ', '|', ' ', 'm', 'u', 's', 'l', ' ', ' ', ' ', ' ', ' ', ' ', ' ', '|'],
  ['|', ' ', '[', 'a', 'r', 'm', 'v', '7', '-', 'u', 'n', 'k', 'n', 'o', 'w', 'n', '-', 'l', 'i', 'n', 'u', 'x', '-', 'o', 'h', 'o', 's', ']', ' ', ' ', ' ', ' ', ' ', ' ', ' ', ' ', ' ', ' ', ' ', ' ', ' ', '|', ' ', 'a', 'r', 'm', ' ', ' ', ' ', ' ', ' ', ' ', ' ', ' ', ' ', '|', ' ', 'l', 'i', 'n', 'u', 'x', ' ', ' ', ' ', ' ', ' ', ' ', '|', ' ', 'o', 'h', 'o', 's', ' ', ' ', ' ', ' ', ' ', ' ', ' ', '|'],
  ['|', ' ', '[', 'a', 'r', 'm', 'v', '7', 'a', '-', 'n', 'o', 'n', 'e', '-', 'e', 'a', 'b', 'i', ']', ' ', ' ', ' ', ' ', ' ', ' ', ' ', ' ', ' ', ' ', ' ', ' ', ' ', ' ', ' ', ' ', ' ', ' ', ' ', ' ', ' ', '|', ' ', 'a', 'r', 'm', ' ', ' ', ' ', ' ', ' ', ' ', ' ', ' ', ' ', '|', ' ', 'n', 'o', 'n', 'e', ' ', ' ', ' ', ' ', ' ', ' ', ' ', '|', ' ', ' ', ' ', ' ', ' ', ' ', ' ', ' ', ' ', ' ', ' ', ' ', '|']]

/-- `platforms/README.md:113-137`. -/
def readme2 : List Str := [
  ['|', ' ', '[', 'a', 'r', 'm', 'v', '7', 'a', '-', 'n', 'o', 'n', 'e', '-', 'e', 'a', 'b', 'i', 'h', 'f', ']', ' ', ' ', ' ', ' ', ' ', ' ', ' ', ' ', ' ', ' ', ' ', ' ', ' ', ' ', ' ', ' ', ' ', ' ', ' ', '|', ' ', 'a', 'r', 'm', ' ', ' ', ' ', ' ', ' ', ' ', ' ', ' ', ' ', '|', ' ', 'n', 'o', 'n', 'e', ' ', ' ', ' ', ' ', ' ', ' ', ' ', '|', ' ', ' ', ' ', ' ', ' ', ' ', ' ', ' ', ' ', ' ', ' ', ' ', '|'],
  ['|', ' ', '[', 'a', 'r', 'm', 'v', '7', 'r', '-', 'n', 'o', 'n', 'e', '-', 'e', 'a', 'b', 'i', ']', ' ', ' ', ' ', ' ', ' ', ' ', ' ', ' ', ' ', ' ', ' ', ' ', ' ', ' ', ' ', ' ', ' ', ' ', ' ', ' ', ' ', '|', ' ', 'a', 'r', 'm', ' ', ' ', ' ', ' ', ' ', ' ', ' ', ' ', ' ', '|', ' ', 'n', 'o', 'n', 'e', ' ', ' ', ' ', ' ', ' ', ' ', ' ', '|', ' ', ' ', ' ', ' ', ' ', ' ', ' ', ' ', ' ', ' ', ' ', ' ', '|'],
  ['|', ' ', '[', 'a', 'r', 'm', 'v', '7', 'r', '-', 'n', 'o', 'n', 'e', '-', 'e', 'a', 'b', 'i', 'h', 'f', ']', ' ', ' ', ' ', ' ', ' ', ' ', ' ', ' ', ' ', ' ', ' ', ' ', ' ', ' ', ' ', ' ', ' ', ' ', ' ', '|', ' ', 'a', 'r', 'm', ' ', ' ', ' ', ' ', ' ', ' ', ' ', ' ', ' ', '|', ' ', 'n', 'o', 'n', 'e', ' ', ' ', ' ', ' ', ' ', ' ', ' ', '|', ' ', ' ', ' ', ' ', ' ', ' ', ' ', ' ', ' ', ' ', ' ', ' ', '|'],
  ['|', ' ', '[', 'a', 'r', 'm', 'v', '8', 'r', '-', 'n', 'o', 'n', 'e', '-', 'e', 'a', 'b', 'i', 'h', 'f', ']', ' ', ' ', ' ', ' ', ' ', ' ', ' ', ' ', ' ', ' ', ' ', ' ', ' ', ' ', ' ', ' ', ' ', ' ', ' ', '|', ' ', 'a', 'r', 'm', ' ', ' ', ' ', ' ', ' ', ' ', ' ', ' ', ' ', '|', ' ', 'n', 'o', 'n', 'e', ' ', ' ', ' ', ' ', ' ', ' ', ' ', '|', ' ', ' ', ' ', ' ', ' ', ' ', ' ', ' ', ' ', ' ', ' ', ' ', '|'],
  ['|', ' ', '[', 'i', '5', '8', '6', '-', 'u', 'n', 'k', 'n', 'o', 'w', 'n', '-', 'l', 'i', 'n', 'u', 'x', '-', 'g', 'n', 'u', ']', ' ', ' ', ' ', ' ', ' ', ' ', ' ', ' ', ' ', ' ', ' ', ' ', ' ', ' ', ' ', '|', ' ', 'x', '8', '6', ' ', ' ', ' ', ' ', ' ', ' ', ' ', ' ', ' ', '|', ' ', 'l', 'i', 'n', 'u', 'x', ' ', ' ', ' ', ' ', ' ', ' ', '|', ' ', 'g', 'n', 'u', ' ', ' ', ' ', ' ', ' ', ' ', ' ', ' ', '|'],
  ['|', ' ', '[', 'i', '5', '8', '6', '-', 'u', 'n', 'k', 'n', 'o', 'w', 'n', '-', 'l', 'i', 'n', 'u', 'x', '-', 'm', 'u', 's', 'l', ']', ' ', ' ', ' ', ' ', ' ', ' ', ' ', ' ', ' ', ' ', ' ', ' ', ' ', ' ', '|', ' ', 'x', '8', '6', ' ', ' ', ' ', ' ', ' ', ' ', ' ', ' ', ' ', '|', ' ', 'l', 'i', 'n', 'u', 'x', ' ', ' ', ' ', ' ', ' ', ' ', '|', ' ', 'm', 'u', 's', 'l', ' ', ' ', ' ', ' ', ' ', ' ', ' ', '|'],
  ['|', ' ', '[', 'i', '6', '8', '6', '-', 'l', 'i', 'n', 'u', 'x', '-', 'a', 'n', 'd', 'r', 'o', 'i', 'd', ']', ' ', ' ', ' ', ' ', ' ', ' ', ' ', ' ', ' ', ' ', ' ', ' ', ' ', ' ', ' ', ' ', ' ', ' ', ' ', '|', ' ', 'x', '8', '6', ' ', ' ', ' ', ' ', ' ', ' ', ' ', ' ', ' ', '|', ' ', 'a', 'n', 'd', 'r', 'o', 'i', 'd', ' ', ' ', ' ', ' ', '|', ' ', ' ', ' ', ' ', ' ', ' ', ' ', ' ', ' ', ' ', ' ', ' ', '|'],
  ['|', ' ', '[', 'i', '6', '8', '6', '-', 'p', 'c', '-', 'w', 'i', 'n', 'd', 'o', 'w', 's', '-', 'g', 'n', 'u', ']', ' ', ' ', ' ', ' ', ' ', ' ', ' ', ' ', ' ', ' ', ' ', ' ', ' ', ' ', ' ', ' ', ' ', ' ', '|', ' ', 'x', '8', '6', ' ', ' ', ' ', ' ', ' ', ' ', ' ', ' ', ' ', '|', ' ', 'w', 'i', 'n', 'd', 'o', 'w', 's', ' ', ' ', ' ', ' ', '|', ' ', 'g', 'n', 'u', ' ', ' ', ' ', ' ', ' ', ' ', ' ', ' ', '|'],
  ['|', ' ', '[', 'i', '6', '8', '6', '-', 'p', 'c', '-', 'w', 'i', 'n', 'd', 'o', 'w', 's', '-', 'g', 'n', 'u', 'l', 'l', 'v', 'm', ']', ' ', ' ', ' ', ' ', ' ', ' ', ' ', ' ', ' ', ' ', ' ', ' ', ' ', ' ', '|', ' ', 'x', '8', '6', ' ', ' ', ' ', ' ', ' ', ' ', ' ', ' ', ' ', '|', ' ', 'w', 'i', 'n', 'd', 'o', 'w', 's', ' ', ' ', ' ', ' ', '|', ' ', 'g', 'n', 'u', ' ', ' ', ' ', ' ', ' ', ' ', ' ', ' ', '|'],
  ['|', ' ', '[', 'i', '6', '8', '6', '-', 'u', 'n', 'k', 'n', 'o', 'w', 'n', '-', 'f', 'r', 'e', 'e', 'b', 's', 'd', ']', ' ', ' ', ' ', ' ', ' ', ' ', ' ', ' ', ' ', ' ', ' ', ' ', ' ', ' ', ' ', ' ', ' ', '|', ' ', 'x', '8', '6', ' ', ' ', ' ', ' ', ' ', ' ', ' ', ' ', ' ', '|', ' ', 'f', 'r', 'e', 'e', 'b', 's', 'd', ' ', ' ', ' ', ' ', '|', ' ', ' ', ' ', ' ', ' ', ' ', ' ', ' ', ' ', ' ', ' ', ' ', '|'],
  ['|', ' ', '[', 'i', '6', '8', '6', '-', 'u', 'n', 'k', 'n', 'o', 'w', 'n', '-', 'l', 'i', 'n', 'u', 'x', '-', 'm', 'u', 's', 'l', ']', ' ', ' ', ' ', ' ', ' ', ' ', ' ', ' ', ' ', ' ', ' ', ' ', ' ', ' ', '|', ' ', 'x', '8', '6', ' ', ' ', ' ', ' ', ' ', ' ', ' ', ' ', ' ', '|', ' ', 'l', 'i', 'n', 'u', 'x', ' ', ' ', ' ', ' ', ' ', ' ', '|', ' ', 'm', 'u', 's', 'l', ' ', ' ', ' ', ' ', ' ', ' ', ' ', '|'],
  ['|', ' ', '[', 'i', '6', '8', '6', '-', 'u', 'n', 'k', 'n', 'o', 'w', 'n', '-', 'u', 'e', 'f', 'i', ']', ' ', ' ', ' ', ' ', ' ', ' ', ' ', ' ', ' ', ' ', ' ', ' ', ' ', ' ', ' ', ' ', ' ', ' ', ' ', ' ', '|', ' ', 'x', '8', '6', ' ', ' ', ' ', ' ', ' ', ' ', ' ', ' ', ' ', '|', ' ', 'u', 'e', 'f', 'i', ' ', ' ', ' ', ' ', ' ', ' ', ' ', '|', ' ', ' ', ' ', ' ', ' ', ' ', ' ', ' ', ' ', ' ', ' ', ' ', '|'],
  ['|', ' ', '[', 'l', 'o', 'o', 'n', 'g', 'a', 'r', 'c', 'h', '3', '2', '-', 'u', 'n', 'k', 'n', 'o', 'w', 'n', '-', 'n', 'o', 'n', 'e', ']', ' ', ' ', ' ', ' ', ' ', ' ', ' ', ' ', ' ', ' ', ' ', ' ', ' ', '|', ' ', 'l', 'o', 'o', 'n', 'g', 'a', 'r', 'c', 'h', '3', '2', ' ', '|', ' ', 'n', 'o', 'n', 'e', ' ', ' ', ' ', ' ', ' ', ' ', ' ', '|', ' ', ' ', ' ', ' ', ' ', ' ', ' ', ' ', ' ', ' ', ' ', ' ', '|'],
  ['|', ' ', '[', 'l', 'o', 'o', 'n', 'g', 'a', 'r', 'c', 'h', '3', '2', '-', 'u', 'n', 'k', 'n', 'o', 'w', 'n', '-', 'n', 'o', 'n', 'e', '-', 's', 'o', 'f', 't', 'f', 'l', 'o', 'a', 't', ']', ' ', ' ', ' ', '|', ' ', 'l', 'o', 'o', 'n', 'g', 'a', 'r', 'c', 'h', '3', '2', ' ', '|', ' ', 'n', 'o', 'n', 'e', ' ', ' ', ' ', ' ', ' ', ' ', ' ', '|', ' ', ' ', ' ', ' ', ' ', ' ', ' ', ' ', ' ', ' ', ' ', ' ', '|'],
  ['|', ' ', '[', 'l', 'o', 'o', 'n', 'g', 'a', 'r', 'c', 'h', '6', '4', '-', 'u', 'n', 'k', 'n', 'o', 'w', 'n', '-', 'l', 'i', 'n', 'u', 'x', '-', 'g', 'n', 'u', ']', ' ', ' ', ' ', ' ', ' ', ' ', ' ', ' ', '|', ' ', 'l', 'o', 'o', 'n', 'g', 'a', 'r', 'c', 'h', '6', '4', ' ', '|', ' ', 'l', 'i', 'n', 'u', 'x', ' ', ' ', ' ', ' ', ' ', ' ', '|', ' ', 'g', 'n', 'u', ' ', ' ', ' ', ' ', ' ', ' ', ' ', ' ', '|'],
  ['|', ' ', '[', 'l', 'o', 'o', 'n', 'g', 'a', 'r', 'c', 'h', '6', '4', '-', 'u', 'n', 'k', 'n', 'o', 'w', 'n', '-', 'l', 'i', 'n', 'u', 'x', '-', 'm', 'u', 's', 'l', ']', ' ', ' ', ' ', ' ', ' ', ' ', ' ', '|', ' ', 'l', 'o', 'o', 'n', 'g', 'a', 'r', 'c', 'h', '6', '4', ' ', '|', ' ', 'l', 'i', 'n', 'u', 'x', ' ', ' ', ' ', ' ', ' ', ' ', '|', ' ', 'm', 'u', 's', 'l', ' ', ' ', ' ', ' ', ' ', ' ', ' ', '|'],
  ['|', ' ', '[', 'l', 'o', 'o', 'n', 'g', 'a', 'r', 'c', 'h', '6', '4', '-', 'u', 'n', 'k', 'n', 'o', 'w', 'n', '-', 'n', 'o', 'n', 'e', ']', ' ', ' ', ' ', ' ', ' ', ' ', ' ', ' ', ' ', ' ', ' ', ' ', ' ', '|', ' ', 'l', 'o', 'o', 'n', 'g', 'a', 'r', 'c', 'h', '6', '4', ' ', '|', ' ', 'n', 'o', 'n', 'e', ' ', ' ', ' ', ' ', ' ', ' ', ' ', '|', ' ', ' ', ' ', ' ', ' ', ' ', ' ', ' ', ' ', ' ', ' ', ' ', '|'],
  ['|', ' ', '[', 'l', 'o', 'o', 'n', 'g', 'a', 'r', 'c', 'h', '6', '4', '-', 'u', 'n', 'k', 'n', 'o', 'w', 'n', '-', 'n', 'o', 'n', 'e', '-', 's', 'o', 'f', 't', 'f', 'l', 'o', 'a', 't', ']', ' ', ' ', ' ', '|', ' ', 'l', 'o', 'o', 'n', 'g', 'a', 'r', 'c', 'h', '6', '4', ' ', '|', ' ', 'n', 'o', 'n', 'e', ' ', ' ', ' ', ' ', ' ', ' ', ' ', '|', ' ', ' ', ' ', ' ', ' ', ' ', ' ', ' ', ' ', ' ', ' ', ' ', '|'],
  ['|', ' ', '[', 'n', 'v', 'p', 't', 'x', '6', '4', '-', 'n', 'v', 'i', 'd', 'i', 'a', '-', 'c', 'u', 'd', 'a', ']', ' ', ' ', ' ', ' ', ' ', ' ', ' ', ' ', ' ', ' ', ' ', ' ', ' ', ' ', ' ', ' ', ' ', ' ', '|', ' ', 'n', 'v', 'p', 't', 'x', '6', '4', ' ', ' ', ' ', ' ', ' ', '|', ' ', 'c', 'u', 'd', 'a', ' ', ' ', ' ', ' ', ' ', ' ', ' ', '|', ' ', ' ', ' ', ' ', ' ', ' ', ' ', ' ', ' ', ' ', ' ', ' ', '|'],
  ['|', ' ', '[', 'p', 'o', 'w', 'e', 'r', 'p', 'c', '-', 'u', 'n', 'k', 'n', 'o', 'w', 'n', '-', 'l', 'i', 'n', 'u', 'x', '-', 'g', 'n', 'u', ']', ' ', ' ', ' ', ' ', ' ', ' ', ' ', ' ', ' ', ' ', ' ', ' ', '|', ' ', 'p', 'o', 'w', 'e', 'r', 'p', 'c', ' ', ' ', ' ', ' ', ' ', '|', ' ', 'l', 'i', 'n', 'u', 'x', ' ', ' ', ' ', ' ', ' ', ' ', '|', ' ', 'g', 'n', 'u', ' ', ' ', ' ', ' ', ' ', ' ', ' ', ' ', '|'],
  ['|', ' ', '[', 'p', 'o', 'w', 'e', 'r', 'p', 'c', '6', '4', '-', 'u', 'n', 'k', 'n', 'o', 'w', 'n', '-', 'l', 'i', 'n', 'u', 'x', '-', 'g', 'n', 'u', ']', ' ', ' ', ' ', ' ', ' ', ' ', ' ', ' ', ' ', ' ', '|', ' ', 'p', 'o', 'w', 'e', 'r', 'p', 'c', '6', '4', ' ', ' ', ' ', '|', ' ', 'l', 'i', 'n', 'u', 'x', ' ', ' ', ' ', ' ', ' ', ' ', '|', ' ', 'g', 'n', 'u', ' ', ' ', ' ', ' ', ' ', ' ', ' ', ' ', '|'],
  ['|', ' ', '[', 'p', 'o', 'w', 'e', 'r', 'p', 'c', '6', '4', '-', 'u', 'n', 'k', 'n', 'o', 'w', 'n', '-', 'l', 'i', 'n', 'u', 'x', '-', 'm', 'u', 's', 'l', ']', ' ', ' ', ' ', ' ', ' ', ' ', ' ', ' ', ' ', '|', ' ', 'p', 'o', 'w', 'e', 'r', 'p', 'c', '6', '4', ' ', ' ', ' ', '|', ' ', 'l', 'i', 'n', 'u', 'x', ' ', ' ', ' ', ' ', ' ', ' ', '|', ' ', 'm', 'u', 's', 'l', ' ', ' ', ' ', ' ', ' ', ' ', ' ', '|'],
  ['|', ' ', '[', 'p', 'o', 'w', 'e', 'r', 'p', 'c', '6', '4', 'l', 'e', '-', 'u', 'n', 'k', 'n', 'o', 'w', 'n', '-', 'l', 'i', 'n', 'u', 'x', '-', 'g', 'n', 'u', ']', ' ', ' ', ' ', ' ', ' ', ' ', ' ', ' ', '|', ' ', 'p', 'o', 'w', 'e', 'r', 'p', 'c', '6', '4', ' ', ' ', ' ', '|', ' ', 'l', 'i', 'n', 'u', 'x', ' ', ' ', ' ', ' ', ' ', ' ', '|', ' ', 'g', 'n', 'u', ' ', ' ', ' ', ' ', ' ', ' ', ' ', ' ', '|'],
  ['|', ' ', '[', 'p', 'o', 'w', 'e', 'r', 'p', 'c', '6', '4', 'l', 'e', '-', 'u', 'n', 'k', 'n', 'o', 'w', 'n', '-', 'l', 'i', 'n', 'u', 'x', '-', 'm', 'u', 's', 'l', ']', ' ', ' ', ' ', ' ', ' ', ' ', ' ', '|', ' ', 'p', 'o', 'w', 'e', 'r', 'p', 'c', '6', '4', ' ', ' ', ' ', '|', ' ', 'l', 'i', 'n', 'u', 'x', ' ', ' ', ' ', ' ', ' ', ' ', '|', ' ', 'm', 'u', 's', 'l', ' ', ' ', ' ', ' ', ' ', ' ', ' ', '|'],
  ['|', ' ', '[', 'r', 'i', 's', 'c', 'v', '3', '2', 'i', '-', 'u', 'n', 'k', 'n', 'o', 'w', 'n', '-', 'n', 'o', 'n', 'e', '-', 'e', 'l', 'f', ']', ' ', ' ', ' ', ' ', ' ', ' ', ' ', ' ', ' ', ' ', ' ', ' ', '|', ' ', 'r', 'i', 's', 'c', 'v', '3', '2', ' ', ' ', ' ', ' ', ' ', '|', ' ', 'n', 'o', 'n', 'e', ' ', ' ', ' ', ' ', ' ', ' ', ' ', '|', ' ', ' ', ' ', ' ', ' ', ' ', ' ', ' ', ' ', ' ', ' ', ' ', '|']]

/-- `platforms/README.md:138-162`. -/
def readme3 : List Str := [
  ['|', ' ', '[', 'r', 'i', 's', 'c', 'v', '3', '2', 'i', 'm', '-', 'u', 'n', 'k', 'n', 'o', 'w', 'n', '-', 'n', 'o', 'n', 'e', '-', 'e', 'l', 'f', ']', ' ', ' ', ' ', ' ', ' ', ' ', ' ', ' ', ' ', ' ', ' ', '|', ' ', 'r', 'i', 's', 'c', 'v', '3', '2', ' ', ' ', ' ', ' ', ' ', '|', ' ', 'n', 'o', 'n', 'e', ' ', ' ', ' ', ' ', ' ', ' ', ' ', '|', ' ', ' ', ' ', ' ', ' ', ' ', ' ', ' ', ' ', ' ', ' ', ' ', '|'],
  ['|', ' ', '[', 'r', 'i', 's', 'c', 'v', '3', '2', 'i', 'm', 'a', 'c', '-', 'u', 'n', 'k', 'n', 'o', 'w', 'n', '-', 'n', 'o', 'n', 'e', '-', 'e', 'l', 'f', ']', ' ', ' ', ' ', ' ', ' ', ' ', ' ', ' ', ' ', '|', ' ', 'r', 'i', 's', 'c', 'v', '3', '2', ' ', ' ', ' ', ' ', ' ', '|', ' ', 'n', 'o', 'n', 'e', ' ', ' ', ' ', ' ', ' ', ' ', ' ', '|', ' ', ' ', ' ', ' ', ' ', ' ', ' ', ' ', ' ', ' ', ' ', ' ', '|'],
  ['|', ' ', '[', 'r', 'i', 's', 'c', 'v', '3', '2', 'i', 'm', 'a', 'f', 'c', '-', 'u', 'n', 'k', 'n', 'o', 'w', 'n', '-', 'n', 'o', 'n', 'e', '-', 'e', 'l', 'f', ']', ' ', ' ', ' ', ' ', ' ', ' ', ' ', ' ', '|', ' ', 'r', 'i', 's', 'c', 'v', '3', '2', ' ', ' ', ' ', ' ', ' ', '|', ' ', 'n', 'o', 'n', 'e', ' ', ' ', ' ', ' ', ' ', ' ', ' ', '|', ' ', ' ', ' ', ' ', ' ', ' ', ' ', ' ', ' ', ' ', ' ', ' ', '|'],
  ['|', ' ', '[', 'r', 'i', 's', 'c', 'v', '3', '2', 'i', 'm', 'c', '-', 'u', 'n', 'k', 'n', 'o', 'w', 'n', '-', 'n', 'o', 'n', 'e', '-', 'e', 'l', 'f', ']', ' ', ' ', ' ', ' ', ' ', ' ', ' ', ' ', ' ', ' ', '|', ' ', 'r', 'i', 's', 'c', 'v', '3', '2', ' ', ' ', ' ', ' ', ' ', '|', ' ', 'n', 'o', 'n', 'e', ' ', ' ', ' ', ' ', ' ', ' ', ' ', '|', ' ', ' ', ' ', ' ', ' ', ' ', ' ', ' ', ' ', ' ', ' ', ' ', '|'],
  ['|', ' ', '[', 'r', 'i', 's', 'c', 'v', '6', '4', 'a', '2', '3', '-', 'u', 'n', 'k', 'n', 'o', 'w', 'n', '-', 'l', 'i', 'n', 'u', 'x', '-', 'g', 'n', 'u', ']', ' ', ' ', ' ', ' ', ' ', ' ', ' ', ' ', ' ', '|', ' ', 'r', 'i', 's', 'c', 'v', '6', '4', ' ', ' ', ' ', ' ', ' ', '|', ' ', 'l', 'i', 'n', 'u', 'x', ' ', ' ', ' ', ' ', ' ', ' ', '|', ' ', 'g', 'n', 'u', ' ', ' ', ' ', ' ', ' ', ' ', ' ', ' ', '|'],
  ['|', ' ', '[', 'r', 'i', 's', 'c', 'v', '6', '4', 'g', 'c', '-', 'u', 'n', 'k', 'n', 'o', 'w', 'n', '-', 'l', 'i', 'n', 'u', 'x', '-', 'g', 'n', 'u', ']', ' ', ' ', ' ', ' ', ' ', ' ', ' ', ' ', ' ', ' ', '|', ' ', 'r', 'i', 's', 'c', 'v', '6', '4', ' ', ' ', ' ', ' ', ' ', '|', ' ', 'l', 'i', 'n', 'u', 'x', ' ', ' ', ' ', ' ', ' ', ' ', '|', ' ', 'g', 'n', 'u', ' ', ' ', ' ', ' ', ' ', ' ', ' ', ' ', '|'],
  ['|', ' ', '[', 'r', 'i', 's', 'c', 'v', '6', '4', 'g', 'c', '-', 'u', 'n', 'k', 'n', 'o', 'w', 'n', '-', 'l', 'i', 'n', 'u', 'x', '-', 'm', 'u', 's', 'l', ']', ' ', ' ', ' ', ' ', ' ', ' ', ' ', ' ', ' ', '|', ' ', 'r', 'i', 's', 'c', 'v', '6', '4', ' ', ' ', ' ', ' ', ' ', '|', ' ', 'l', 'i', 'n', 'u', 'x', ' ', ' ', ' ', ' ', ' ', ' ', '|', ' ', 'm', 'u', 's', 'l', ' ', ' ', ' ', ' ', ' ', ' ', ' ', '|'],
  ['|', ' ', '[', 'r', 'i', 's', 'c', 'v', '6', '4', 'g', 'c', '-', 'u', 'n', 'k', 'n', 'o', 'w', 'n', '-', 'n', 'o', 'n', 'e', '-', 'e', 'l', 'f', ']', ' ', ' ', ' ', ' ', ' ', ' ', ' ', ' ', ' ', ' ', ' ', '|', ' ', 'r', 'i', 's', 'c', 'v', '6', '4', ' ', ' ', ' ', ' ', ' ', '|', ' ', 'n', 'o', 'n', 'e', ' ', ' ', ' ', ' ', ' ', ' ', ' ', '|', ' ', ' ', ' ', ' ', ' ', ' ', ' ', ' ', ' ', ' ', ' ', ' ', '|'],
  ['|', ' ', '[', 'r', 'i', 's', 'c', 'v', '6', '4', 'i', 'm', '-', 'u', 'n', 'k', 'n', 'o', 'w', 'n', '-', 'n', 'o', 'n', 'e', '-', 'e', 'l', 'f', ']', ' ', ' ', ' ', ' ', ' ', ' ', ' ', ' ', ' ', ' ', ' ', '|', ' ', 'r', 'i', 's', 'c', 'v', '6', '4', ' ', ' ', ' ', ' ', ' ', '|', ' ', 'n', 'o', 'n', 'e', ' ', ' ', ' ', ' ', ' ', ' ', ' ', '|', ' ', ' ', ' ', ' ', ' ', ' ', ' ', ' ', ' ', ' ', ' ', ' ', '|'],
  ['|', ' ', '[', 'r', 'i', 's', 'c', 'v', '6', '4', 'i', 'm', 'a', 'c', '-', 'u', 'n', 'k', 'n', 'o', 'w', 'n', '-', 'n', 'o', 'n', 'e', '-', 'e', 'l', 'f', ']', ' ', ' ', ' ', ' ', ' ', ' ', ' ', ' ', ' ', '|', ' ', 'r', 'i', 's', 'c', 'v', '6', '4', ' ', ' ', ' ', ' ', ' ', '|', ' ', 'n', 'o', 'n', 'e', ' ', ' ', ' ', ' ', ' ', ' ', ' ', '|', ' ', ' ', ' ', ' ', ' ', ' ', ' ', ' ', ' ', ' ', ' ', ' ', '|'],
  ['|', ' ', '[', 's', '3', '9', '0', 'x', '-', 'u', 'n', 'k', 'n', 'o', 'w', 'n', '-', 'l', 'i', 'n', 'u', 'x', '-', 'g', 'n', 'u', ']', ' ', ' ', ' ', ' ', ' ', ' ', ' ', ' ', ' ', ' ', ' ', ' ', ' ', ' ', '|', ' ', 's', '3', '9', '0', 'x', ' ', ' ', ' ', ' ', ' ', ' ', ' ', '|', ' ', 'l', 'i', 'n', 'u', 'x', ' ', ' ', ' ', ' ', ' ', ' ', '|', ' ', 'g', 'n', 'u', ' ', ' ', ' ', ' ', ' ', ' ', ' ', ' ', '|'],
  ['|', ' ', '[', 's', '3', '9', '0', 'x', '-', 'u', 'n', 'k', 'n', 'o', 'w', 'n', '-', 'n', 'o', 'n', 'e', '-', 's', 'o', 'f', 't', 'f', 'l', 'o', 'a', 't', ']', ' ', ' ', ' ', ' ', ' ', ' ', ' ', ' ', ' ', '|', ' ', 's', '3', '9', '0', 'x', ' ', ' ', ' ', ' ', ' ', ' ', ' ', '|', ' ', 'n', 'o', 'n', 'e', ' ', ' ', ' ', ' ', ' ', ' ', ' ', '|', ' ', ' ', ' ', ' ', ' ', ' ', ' ', ' ', ' ', ' ', ' ', ' ', '|'],
  ['|', ' ', '[', 's', 'p', 'a', 'r', 'c', '6', '4', '-', 'u', 'n', 'k', 'n', 'o', 'w', 'n', '-', 'l', 'i', 'n', 'u', 'x', '-', 'g', 'n', 'u', ']', ' ', ' ', ' ', ' ', ' ', ' ', ' ', ' ', ' ', ' ', ' ', ' ', '|', ' ', 's', 'p', 'a', 'r', 'c', '6', '4', ' ', ' ', ' ', ' ', ' ', '|', ' ', 'l', 'i', 'n', 'u', 'x', ' ', ' ', ' ', ' ', ' ', ' ', '|', ' ', 'g', 'n', 'u', ' ', ' ', ' ', ' ', ' ', ' ', ' ', ' ', '|'],
  ['|', ' ', '[', 's', 'p', 'a', 'r', 'c', 'v', '9', '-', 's', 'u', 'n', '-', 's', 'o', 'l', 'a', 'r', 'i', 's', ']', ' ', ' ', ' ', ' ', ' ', ' ', ' ', ' ', ' ', ' ', ' ', ' ', ' ', ' ', ' ', ' ', ' ', ' ', '|', ' ', 's', 'p', 'a', 'r', 'c', '6', '4', ' ', ' ', ' ', ' ', ' ', '|', ' ', 's', 'o', 'l', 'a', 'r', 'i', 's', ' ', ' ', ' ', ' ', '|', ' ', ' ', ' ', ' ', ' ', ' ', ' ', ' ', ' ', ' ', ' ', ' ', '|'],
  ['|', ' ', '[', 't', 'h', 'u', 'm', 'b', 'v', '6', 'm', '-', 'n', 'o', 'n', 'e', '-', 'e', 'a', 'b', 'i', ']', ' ', ' ', ' ', ' ', ' ', ' ', ' ', ' ', ' ', ' ', ' ', ' ', ' ', ' ', ' ', ' ', ' ', ' ', ' ', '|', ' ', 'a', 'r', 'm', ' ', ' ', ' ', ' ', ' ', ' ', ' ', ' ', ' ', '|', ' ', 'n', 'o', 'n', 'e', ' ', ' ', ' ', ' ', ' ', ' ', ' ', '|', ' ', ' ', ' ', ' ', ' ', ' ', ' ', ' ', ' ', ' ', ' ', ' ', '|'],
  ['|', ' ', '[', 't', 'h', 'u', 'm', 'b', 'v', '7', 'a', '-', 'n', 'o', 'n', 'e', '-', 'e', 'a', 'b', 'i', ']', ' ', ' ', ' ', ' ', ' ', ' ', ' ', ' ', ' ', ' ', ' ', ' ', ' ', ' ', ' ', ' ', ' ', ' ', ' ', '|', ' ', 'a', 'r', 'm', ' ', ' ', ' ', ' ', ' ', ' ', ' ', ' ', ' ', '|', ' ', 'n', 'o', 'n', 'e', ' ', ' ', ' ', ' ', ' ', ' ', ' ', '|', ' ', ' ', ' ', ' ', ' ', ' ', ' ', ' ', ' ', ' ', ' ', ' ', '|'],
  ['|', ' ', '[', 't', 'h', 'u', 'm', 'b', 'v', '7', 'a', '-', 'n', 'o', 'n', 'e', '-', 'e', 'a', 'b', 'i', 'h', 'f', ']', ' ', ' ', ' ', ' ', ' ', ' ', ' ', ' ', ' ', ' ', ' ', ' ', ' ', ' ', ' ', ' ', ' ', '|', ' ', 'a', 'r', 'm', ' ', ' ', ' ', ' ', ' ', ' ', ' ', ' ', ' ', '|', ' ', 'n', 'o', 'n', 'e', ' ', ' ', ' ', ' ', ' ', ' ', ' ', '|', ' ', ' ', ' ', ' ', ' ', ' ', ' ', ' ', ' ', ' ', ' ', ' ', '|'],
  ['|', ' ', '[', 't', 'h', 'u', 'm', 'b', 'v', '7', 'e', 'm', '-', 'n', 'o', 'n', 'e', '-', 'e', 'a', 'b', 'i', ']', ' ', ' ', ' ', ' ', ' ', ' ', ' ', ' ', ' ', ' ', ' ', ' ', ' ', ' ', ' ', ' ', ' ', ' ', '|', ' ', 'a', 'r', 'm', ' ', ' ', ' ', ' ', ' ', ' ', ' ', ' ', ' ', '|', ' ', 'n', 'o', 'n', 'e', ' ', ' ', ' ', ' ', ' ', ' ', ' ', '|', ' ', ' ', ' ', ' ', ' ', ' ', ' ', ' ', ' ', ' ', ' ', ' ', '|'],
  ['|', ' ', '[', 't', 'h', 'u', 'm', 'b', 'v', '7', 'e', 'm', '-', 'n', 'o', 'n', 'e', '-', 'e', 'a', 'b', 'i', 'h', 'f', ']', ' ', ' ', ' ', ' ', ' ', ' ', ' ', ' ', ' ', ' ', ' ', ' ', ' ', ' ', ' ', ' ', '|', ' ', 'a', 'r', 'm', ' ', ' ', ' ', ' ', ' ', ' ', ' ', ' ', ' ', '|', ' ', 'n', 'o', 'n', 'e', ' ', ' ', ' ', ' ', ' ', ' ', ' ', '|', ' ', ' ', ' ', ' ', ' ', ' ', ' ', ' ', ' ', ' ', ' ', ' ', '|'],
  ['|', ' ', '[', 't', 'h', 'u', 'm', 'b', 'v', '7', 'm', '-', 'n', 'o', 'n', 'e', '-', 'e', 'a', 'b', 'i', ']', ' ', ' ', ' ', ' ', ' ', ' ', ' ', ' ', ' ', ' ', ' ', ' ', ' ', ' ', ' ', ' ', ' ', ' ', ' ', '|', ' ', 'a', 'r', 'm', ' ', ' ', ' ', ' ', ' ', ' ', ' ', ' ', ' ', '|', ' ', 'n', 'o', 'n', 'e', ' ', ' ', ' ', ' ', ' ', ' ', ' ', '|', ' ', ' ', ' ', ' ', ' ', ' ', ' ', ' ', ' ', ' ', ' ', ' ', '|'],
  ['|', ' ', '[', 't', 'h', 'u', 'm', 'b', 'v', '7', 'n', 'e', 'o', 'n', '-', 'l', 'i', 'n', 'u', 'x', '-', 'a', 'n', 'd', 'r', 'o', 'i', 'd', 'e', 'a', 'b', 'i', ']', ' ', ' ', ' ', ' ', ' ', ' ', ' ', ' ', '|', ' ', 'a', 'r', 'm', ' ', ' ', ' ', ' ', ' ', ' ', ' ', ' ', ' ', '|', ' ', 'a', 'n', 'd', 'r', 'o', 'i', 'd', ' ', ' ', ' ', ' ', '|', ' ', ' ', ' ', ' ', ' ', ' ', ' ', ' ', ' ', ' ', ' ', ' ', '|'],
  ['|', ' ', '[', 't', 'h', 'u', 'm', 'b', 'v', '7', 'n', 'e', 'o', 'n', '-', 'u', 'n', 'k', 'n', 'o', 'w', 'n', '-', 'l', 'i', 'n', 'u', 'x', '-', 'g', 'n', 'u', 'e', 'a', 'b', 'i', 'h', 'f', ']', ' ', ' ', '|', ' ', 'a', 'r', 'm', ' ', ' ', ' ', ' ', ' ', ' ', ' ', ' ', ' ', '|', ' ', 'l', 'i', 'n', 'u', 'x', ' ', ' ', ' ', ' ', ' ', ' ', '|', ' ', 'g', 'n', 'u', ' ', ' ', ' ', ' ', ' ', ' ', ' ', ' ', '|'],
  ['|', ' ', '[', 't', 'h', 'u', 'm', 'b', 'v', '7', 'r', '-', 'n', 'o', 'n', 'e', '-', 'e', 'a', 'b', 'i', ']', ' ', ' ', ' ', ' ', ' ', ' ', ' ', ' ', ' ', ' ', ' ', ' ', ' ', ' ', ' ', ' ', ' ', ' ', ' ', '|', ' ', 'a', 'r', 'm', ' ', ' ', ' ', ' ', ' ', ' ', ' ', ' ', ' ', '|', ' ', 'n', 'o', 'n', 'e', ' ', ' ', ' ', ' ', ' ', ' ', ' ', '|', ' ', ' ', ' ', ' ', ' ', ' ', ' ', ' ', ' ', ' ', ' ', ' ', '|'],
  ['|', ' ', '[', 't', 'h', 'u', 'm', 'b', 'v', '7', 'r', '-', 'n', 'o', 'n', 'e', '-', 'e', 'a', 'b', 'i', 'h', 'f', ']', ' ', ' ', ' ', ' ', ' ', ' ', ' ', ' ', ' ', ' ', ' ', ' ', ' ', ' ', ' ', ' ', ' ', '|', ' ', 'a', 'r', 'm', ' ', ' ', ' ', ' ', ' ', ' ', ' ', ' ', ' ', '|', ' ', 'n', 'o', 'n', 'e', ' ', ' ', ' ', ' ', ' ', ' ', ' ', '|', ' ', ' ', ' ', ' ', ' ', ' ', ' ', ' ', ' ', ' ', ' ', ' ', '|'],
  ['|', ' ', '[', 't', 'h', 'u', 'm', 'b', 'v', '8', 'm', '.', 'b', 'a', 's', 'e', '-', 'n', 'o', 'n', 'e', '-', 'e', 'a', 'b', 'i', ']', ' ', ' ', ' ', ' ', ' ', ' ', ' ', ' ', ' ', ' ', ' ', ' ', ' ', ' ', '|', ' ', 'a', 'r', 'm', ' ', ' ', ' ', ' ', ' ', ' ', ' ', ' ', ' ', '|', ' ', 'n', 'o', 'n', 'e', ' ', ' ', ' ', ' ', ' ', ' ', ' ', '|', ' ', ' ', ' ', ' ', ' ', ' ', ' ', ' ', ' ', ' ', ' ', ' ', '|']]

/-- `platforms/README.md:163-187`. -/
def readme4 : List Str := [
  ['|', ' ', '[', 't', 'h', 'u', 'm', 'b', 'v', '8', 'm', '.', 'm', 'a', 'i', 'n', '-', 'n', 'o', 'n', 'e', '-', 'e', 'a', 'b', 'i', ']', ' ', ' ', ' ', ' ', ' ', ' ', ' ', ' ', ' ', ' ', ' ', ' ', ' ', ' ', '|', ' ', 'a', 'r', 'm', ' ', ' ', ' ', ' ', ' ', ' ', ' ', ' ', ' ', '|', ' ', 'n', 'o', 'n', 'e', ' ', ' ', ' ', ' ', ' ', ' ', ' ', '|', ' ', ' ', ' ', ' ', ' ', ' ', ' ', ' ', ' ', ' ', ' ', ' ', '|'],
  ['|', ' ', '[', 't', 'h', 'u', 'm', 'b', 'v', '8', 'm', '.', 'm', 'a', 'i', 'n', '-', 'n', 'o', 'n', 'e', '-', 'e', 'a', 'b', 'i', 'h', 'f', ']', ' ', ' ', ' ', ' ', ' ', ' ', ' ', ' ', ' ', ' ', ' ', ' ', '|', ' ', 'a', 'r', 'm', ' ', ' ', ' ', ' ', ' ', ' ', ' ', ' ', ' ', '|', ' ', 'n', 'o', 'n', 'e', ' ', ' ', ' ', ' ', ' ', ' ', ' ', '|', ' ', ' ', ' ', ' ', ' ', ' ', ' ', ' ', ' ', ' ', ' ', ' ', '|'],
  ['|', ' ', '[', 't', 'h', 'u', 'm', 'b', 'v', '8', 'r', '-', 'n', 'o', 'n', 'e', '-', 'e', 'a', 'b', 'i', 'h', 'f', ']', ' ', ' ', ' ', ' ', ' ', ' ', ' ', ' ', ' ', ' ', ' ', ' ', ' ', ' ', ' ', ' ', ' ', '|', ' ', 'a', 'r', 'm', ' ', ' ', ' ', ' ', ' ', ' ', ' ', ' ', ' ', '|', ' ', 'n', 'o', 'n', 'e', ' ', ' ', ' ', ' ', ' ', ' ', ' ', '|', ' ', ' ', ' ', ' ', ' ', ' ', ' ', ' ', ' ', ' ', ' ', ' ', '|'],
  ['|', ' ', '[', 'w', 'a', 's', 'm', '3', '2', '-', 'u', 'n', 'k', 'n', 'o', 'w', 'n', '-', 'e', 'm', 's', 'c', 'r', 'i', 'p', 't', 'e', 'n', ']', ' ', ' ', ' ', ' ', ' ', ' ', ' ', ' ', ' ', ' ', ' ', ' ', '|', ' ', 'w', 'a', 's', 'm', '3', '2', ' ', ' ', ' ', ' ', ' ', ' ', '|', ' ', 'e', 'm', 's', 'c', 'r', 'i', 'p', 't', 'e', 'n', ' ', '|', ' ', ' ', ' ', ' ', ' ', ' ', ' ', ' ', ' ', ' ', ' ', ' ', '|'],
  ['|', ' ', '[', 'w', 'a', 's', 'm', '3', '2', '-', 'u', 'n', 'k', 'n', 'o', 'w', 'n', '-', 'u', 'n', 'k', 'n', 'o', 'w', 'n', ']', ' ', ' ', ' ', ' ', ' ', ' ', ' ', ' ', ' ', ' ', ' ', ' ', ' ', ' ', ' ', '|', ' ', 'w', 'a', 's', 'm', '3', '2', ' ', ' ', ' ', ' ', ' ', ' ', '|', ' ', 'u', 'n', 'k', 'n', 'o', 'w', 'n', ' ', ' ', ' ', ' ', '|', ' ', ' ', ' ', ' ', ' ', ' ', ' ', ' ', ' ', ' ', ' ', ' ', '|'],
  ['|', ' ', '[', 'w', 'a', 's', 'm', '3', '2', '-', 'w', 'a', 's', 'i', 'p', '1', ']', ' ', ' ', ' ', ' ', ' ', ' ', ' ', ' ', ' ', ' ', ' ', ' ', ' ', ' ', ' ', ' ', ' ', ' ', ' ', ' ', ' ', ' ', ' ', ' ', '|', ' ', 'w', 'a', 's', 'm', '3', '2', ' ', ' ', ' ', ' ', ' ', ' ', '|', ' ', 'w', 'a', 's', 'i', ' ', ' ', ' ', ' ', ' ', ' ', ' ', '|', ' ', 'p', '1', ' ', ' ', ' ', ' ', ' ', ' ', ' ', ' ', ' ', '|'],
  ['|', ' ', '[', 'w', 'a', 's', 'm', '3', '2', '-', 'w', 'a', 's', 'i', 'p', '1', '-', 't', 'h', 'r', 'e', 'a', 'd', 's', ']', ' ', ' ', ' ', ' ', ' ', ' ', ' ', ' ', ' ', ' ', ' ', ' ', ' ', ' ', ' ', ' ', '|', ' ', 'w', 'a', 's', 'm', '3', '2', ' ', ' ', ' ', ' ', ' ', ' ', '|', ' ', 'w', 'a', 's', 'i', ' ', ' ', ' ', ' ', ' ', ' ', ' ', '|', ' ', 'p', '1', ' ', ' ', ' ', ' ', ' ', ' ', ' ', ' ', ' ', '|'],
  ['|', ' ', '[', 'w', 'a', 's', 'm', '3', '2', '-', 'w', 'a', 's', 'i', 'p', '2', ']', ' ', ' ', ' ', ' ', ' ', ' ', ' ', ' ', ' ', ' ', ' ', ' ', ' ', ' ', ' ', ' ', ' ', ' ', ' ', ' ', ' ', ' ', ' ', ' ', '|', ' ', 'w', 'a', 's', 'm', '3', '2', ' ', ' ', ' ', ' ', ' ', ' ', '|', ' ', 'w', 'a', 's', 'i', ' ', ' ', ' ', ' ', ' ', ' ', ' ', '|', ' ', 'p', '2', ' ', ' ', ' ', ' ', ' ', ' ', ' ', ' ', ' ', '|'],
  ['|', ' ', '[', 'w', 'a', 's', 'm', '3', '2', 'v', '1', '-', 'n', 'o', 'n', 'e', ']', ' ', ' ', ' ', ' ', ' ', ' ', ' ', ' ', ' ', ' ', ' ', ' ', ' ', ' ', ' ', ' ', ' ', ' ', ' ', ' ', ' ', ' ', ' ', ' ', '|', ' ', 'w', 'a', 's', 'm', '3', '2', ' ', ' ', ' ', ' ', ' ', ' ', '|', ' ', 'n', 'o', 'n', 'e', ' ', ' ', ' ', ' ', ' ', ' ', ' ', '|', ' ', ' ', ' ', ' ', ' ', ' ', ' ', ' ', ' ', ' ', ' ', ' ', '|'],
  ['|', ' ', '[', 'x', '8', '6', '_', '6', '4', '-', 'a', 'p', 'p', 'l', 'e', '-', 'd', 'a', 'r', 'w', 'i', 'n', ']', ' ', ' ', ' ', ' ', ' ', ' ', ' ', ' ', ' ', ' ', ' ', ' ', ' ', ' ', ' ', ' ', ' ', ' ', '|', ' ', 'x', '8', '6', '_', '6', '4', ' ', ' ', ' ', ' ', ' ', ' ', '|', ' ', 'm', 'a', 'c', 'o', 's', ' ', ' ', ' ', ' ', ' ', ' ', '|', ' ', ' ', ' ', ' ', ' ', ' ', ' ', ' ', ' ', ' ', ' ', ' ', '|'],
  ['|', ' ', '[', 'x', '8', '6', '_', '6', '4', '-', 'a', 'p', 'p', 'l', 'e', '-', 'i', 'o', 's', ']', ' ', ' ', ' ', ' ', ' ', ' ', ' ', ' ', ' ', ' ', ' ', ' ', ' ', ' ', ' ', ' ', ' ', ' ', ' ', ' ', ' ', '|', ' ', 'x', '8', '6', '_', '6', '4', ' ', ' ', ' ', ' ', ' ', ' ', '|', ' ', 'i', 'o', 's', ' ', ' ', ' ', ' ', ' ', ' ', ' ', ' ', '|', ' ', 's', 'i', 'm', ' ', ' ', ' ', ' ', ' ', ' ', ' ', ' ', '|'],
  ['|', ' ', '[', 'x', '8', '6', '_', '6', '4', '-', 'a', 'p', 'p', 'l', 'e', '-', 'i', 'o', 's', '-', 'm', 'a', 'c', 'a', 'b', 'i', ']', ' ', ' ', ' ', ' ', ' ', ' ', ' ', ' ', ' ', ' ', ' ', ' ', ' ', ' ', '|', ' ', 'x', '8', '6', '_', '6', '4', ' ', ' ', ' ', ' ', ' ', ' ', '|', ' ', 'i', 'o', 's', ' ', ' ', ' ', ' ', ' ', ' ', ' ', ' ', '|', ' ', 'm', 'a', 'c', 'a', 'b', 'i', ' ', ' ', ' ', ' ', ' ', '|'],
  ['|', ' ', '[', 'x', '8', '6', '_', '6', '4', '-', 'f', 'o', 'r', 't', 'a', 'n', 'i', 'x', '-', 'u', 'n', 'k', 'n', 'o', 'w', 'n', '-', 's', 'g', 'x', ']', ' ', ' ', ' ', ' ', ' ', ' ', ' ', ' ', ' ', ' ', '|', ' ', 'x', '8', '6', '_', '6', '4', ' ', ' ', ' ', ' ', ' ', ' ', '|', ' ', 'u', 'n', 'k', 'n', 'o', 'w', 'n', ' ', ' ', ' ', ' ', '|', ' ', 's', 'g', 'x', ' ', ' ', ' ', ' ', ' ', ' ', ' ', ' ', '|'],
  ['|', ' ', '[', 'x', '8', '6', '_', '6', '4', '-', 'l', 'i', 'n', 'u', 'x', '-', 'a', 'n', 'd', 'r', 'o', 'i', 'd', ']', ' ', ' ', ' ', ' ', ' ', ' ', ' ', ' ', ' ', ' ', ' ', ' ', ' ', ' ', ' ', ' ', ' ', '|', ' ', 'x', '8', '6', '_', '6', '4', ' ', ' ', ' ', ' ', ' ', ' ', '|', ' ', 'a', 'n', 'd', 'r', 'o', 'i', 'd', ' ', ' ', ' ', ' ', '|', ' ', ' ', ' ', ' ', ' ', ' ', ' ', ' ', ' ', ' ', ' ', ' ', '|'],
  ['|', ' ', '[', 'x', '8', '6', '_', '6', '4', '-', 'p', 'c', '-', 's', 'o', 'l', 'a', 'r', 'i', 's', ']', ' ', ' ', ' ', ' ', ' ', ' ', ' ', ' ', ' ', ' ', ' ', ' ', ' ', ' ', ' ', ' ', ' ', ' ', ' ', ' ', '|', ' ', 'x', '8', '6', '_', '6', '4', ' ', ' ', ' ', ' ', ' ', ' ', '|', ' ', 's', 'o', 'l', 'a', 'r', 'i', 's', ' ', ' ', ' ', ' ', '|', ' ', ' ', ' ', ' ', ' ', ' ', ' ', ' ', ' ', ' ', ' ', ' ', '|'],
  ['|', ' ', '[', 'x', '8', '6', '_', '6', '4', '-', 'p', 'c', '-', 'w', 'i', 'n', 'd', 'o', 'w', 's', '-', 'g', 'n', 'u', 'l', 'l', 'v', 'm', ']', ' ', ' ', ' ', ' ', ' ', ' ', ' ', ' ', ' ', ' ', ' ', ' ', '|', ' ', 'x', '8', '6', '_', '6', '4', ' ', ' ', ' ', ' ', ' ', ' ', '|', ' ', 'w', 'i', 'n', 'd', 'o', 'w', 's', ' ', ' ', ' ', ' ', '|', ' ', 'g', 'n', 'u', ' ', ' ', ' ', ' ', ' ', ' ', ' ', ' ', '|'],
  ['|', ' ', '[', 'x', '8', '6', '_', '6', '4', '-', 'u', 'n', 'k', 'n', 'o', 'w', 'n', '-', 'f', 'r', 'e', 'e', 'b', 's', 'd', ']', ' ', ' ', ' ', ' ', ' ', ' ', ' ', ' ', ' ', ' ', ' ', ' ', ' ', ' ', ' ', '|', ' ', 'x', '8', '6', '_', '6', '4', ' ', ' ', ' ', ' ', ' ', ' ', '|', ' ', 'f', 'r', 'e', 'e', 'b', 's', 'd', ' ', ' ', ' ', ' ', '|', ' ', ' ', ' ', ' ', ' ', ' ', ' ', ' ', ' ', ' ', ' ', ' ', '|'],
  ['|', ' ', '[', 'x', '8', '6', '_', '6', '4', '-', 'u', 'n', 'k', 'n', 'o', 'w', 'n', '-', 'f', 'u', 'c', 'h', 's', 'i', 'a', ']', ' ', ' ', ' ', ' ', ' ', ' ', ' ', ' ', ' ', ' ', ' ', ' ', ' ', ' ', ' ', '|', ' ', 'x', '8', '6', '_', '6', '4', ' ', ' ', ' ', ' ', ' ', ' ', '|', ' ', 'f', 'u', 'c', 'h', 's', 'i', 'a', ' ', ' ', ' ', ' ', '|', ' ', ' ', ' ', ' ', ' ', ' ', ' ', ' ', ' ', ' ', ' ', ' ', '|'],
  ['|', ' ', '[', 'x', '8', '6', '_', '6', '4', '-', 'u', 'n', 'k', 'n', 'o', 'w', 'n', '-', 'i', 'l', 'l', 'u', 'm', 'o', 's', ']', ' ', ' ', ' ', ' ', ' ', ' ', ' ', ' ', ' ', ' ', ' ', ' ', ' ', ' ', ' ', '|', ' ', 'x', '8', '6', '_', '6', '4', ' ', ' ', ' ', ' ', ' ', ' ', '|', ' ', 'i', 'l', 'l', 'u', 'm', 'o', 's', ' ', ' ', ' ', ' ', '|', ' ', ' ', ' ', ' ', ' ', ' ', ' ', ' ', ' ', ' ', ' ', ' ', '|'],
  ['|', ' ', '[', 'x', '8', '6', '_', '6', '4', '-', 'u', 'n', 'k', 'n', 'o', 'w', 'n', '-', 'l', 'i', 'n', 'u', 'x', '-', 'g', 'n', 'u', 'a', 's', 'a', 'n', ']', ' ', ' ', ' ', ' ', ' ', ' ', ' ', ' ', ' ', '|', ' ', 'x', '8', '6', '_', '6', '4', ' ', ' ', ' ', ' ', ' ', ' ', '|', ' ', 'l', 'i', 'n', 'u', 'x', ' ', ' ', ' ', ' ', ' ', ' ', '|', ' ', 'g', 'n', 'u', ' ', ' ', ' ', ' ', ' ', ' ', ' ', ' ', '|'],
  ['|', ' ', '[', 'x', '8', '6', '_', '6', '4', '-', 'u', 'n', 'k', 'n', 'o', 'w', 'n', '-', 'l', 'i', 'n', 'u', 'x', '-', 'g', 'n', 'u', 'm', 's', 'a', 'n', ']', ' ', ' ', ' ', ' ', ' ', ' ', ' ', ' ', ' ', '|', ' ', 'x', '8', '6', '_', '6', '4', ' ', ' ', ' ', ' ', ' ', ' ', '|', ' ', 'l', 'i', 'n', 'u', 'x', ' ', ' ', ' ', ' ', ' ', ' ', '|', ' ', 'g', 'n', 'u', ' ', ' ', ' ', ' ', ' ', ' ', ' ', ' ', '|'],
  ['|', ' ', '[', 'x', '8', '6', '_', '6', '4', '-', 'u', 'n', 'k', 'n', 'o', 'w', 'n', '-', 'l', 'i', 'n', 'u', 'x', '-', 'g', 'n', 'u', 't', 's', 'a', 'n', ']', ' ', ' ', ' ', ' ', ' ', ' ', ' ', ' ', ' ', '|', ' ', 'x', '8', '6', '_', '6', '4', ' ', ' ', ' ', ' ', ' ', ' ', '|', ' ', 'l', 'i', 'n', 'u', 'x', ' ', ' ', ' ', ' ', ' ', ' ', '|', ' ', 'g', 'n', 'u', ' ', ' ', ' ', ' ', ' ', ' ', ' ', ' ', '|'],
  ['|', ' ', '[', 'x', '8', '6', '_', '6', '4', '-', 'u', 'n', 'k', 'n', 'o', 'w', 'n', '-', 'l', 'i', 'n', 'u', 'x', '-', 'g', 'n', 'u', 'x', '3', '2', ']', ' ', ' ', ' ', ' ', ' ', ' ', ' ', ' ', ' ', ' ', '|', ' ', 'x', '8', '6', '_', '6', '4', ' ', ' ', ' ', ' ', ' ', ' ', '|', ' ', 'l', 'i', 'n', 'u', 'x', ' ', ' ', ' ', ' ', ' ', ' ', '|', ' ', 'g', 'n', 'u', ' ', ' ', ' ', ' ', ' ', ' ', ' ', ' ', '|'],
  ['|', ' ', '[', 'x', '8', '6', '_', '6', '4', '-', 'u', 'n', 'k', 'n', 'o', 'w', 'n', '-', 'l', 'i', 'n', 'u', 'x', '-', 'm', 'u', 's', 'l', ']', ' ', ' ', ' ', ' ', ' ', ' ', ' ', ' ', ' ', ' ', ' ', ' ', '|', ' ', 'x', '8', '6', '_', '6', '4', ' ', ' ', ' ', ' ', ' ', ' ', '|', ' ', 'l', 'i', 'n', 'u', 'x', ' ', ' ', ' ', ' ', ' ', ' ', '|', ' ', 'm', 'u', 's', 'l', ' ', ' ', ' ', ' ', ' ', ' ', ' ', '|'],
  ['|', ' ', '[', 'x', '8', '6', '_', '6', '4', '-', 'u', 'n', 'k', 'n', 'o', 'w', 'n', '-', 'l', 'i', 'n', 'u', 'x', '-', 'o', 'h', 'o', 's', ']', ' ', ' ', ' ', ' ', ' ', ' ', ' ', ' ', ' ', ' ', ' ', ' ', '|', ' ', 'x', '8', '6', '_', '6', '4', ' ', ' ', ' ', ' ', ' ', ' ', '|', ' ', 'l', 'i', 'n', 'u', 'x', ' ', ' ', ' ', ' ', ' ', ' ', '|', ' ', 'o', 'h', 'o', 's', ' ', ' ', ' ', ' ', ' ', ' ', ' ', '|']]

/-- `platforms/README.md:188-212`. -/
def readme5 : List Str := [
  ['|', ' ', '[', 'x', '8', '6', '_', '6', '4', '-', 'u', 'n', 'k', 'n', 'o', 'w', 'n', '-', 'n', 'e', 't', 'b', 's', 'd', ']', ' ', ' ', ' ', ' ', ' ', ' ', ' ', ' ', ' ', ' ', ' ', ' ', ' ', ' ', ' ', ' ', '|', ' ', 'x', '8', '6', '_', '6', '4', ' ', ' ', ' ', ' ', ' ', ' ', '|', ' ', 'n', 'e', 't', 'b', 's', 'd', ' ', ' ', ' ', ' ', ' ', '|', ' ', ' ', ' ', ' ', ' ', ' ', ' ', ' ', ' ', ' ', ' ', ' ', '|'],
  ['|', ' ', '[', 'x', '8', '6', '_', '6', '4', '-', 'u', 'n', 'k', 'n', 'o', 'w', 'n', '-', 'n', 'o', 'n', 'e', ']', ' ', ' ', ' ', ' ', ' ', ' ', ' ', ' ', ' ', ' ', ' ', ' ', ' ', ' ', ' ', ' ', ' ', ' ', '|', ' ', 'x', '8', '6', '_', '6', '4', ' ', ' ', ' ', ' ', ' ', ' ', '|', ' ', 'n', 'o', 'n', 'e', ' ', ' ', ' ', ' ', ' ', ' ', ' ', '|', ' ', ' ', ' ', ' ', ' ', ' ', ' ', ' ', ' ', ' ', ' ', ' ', '|'],
  ['|', ' ', '[', 'x', '8', '6', '_', '6', '4', '-', 'u', 'n', 'k', 'n', 'o', 'w', 'n', '-', 'r', 'e', 'd', 'o', 'x', ']', ' ', ' ', ' ', ' ', ' ', ' ', ' ', ' ', ' ', ' ', ' ', ' ', ' ', ' ', ' ', ' ', ' ', '|', ' ', 'x', '8', '6', '_', '6', '4', ' ', ' ', ' ', ' ', ' ', ' ', '|', ' ', 'r', 'e', 'd', 'o', 'x', ' ', ' ', ' ', ' ', ' ', ' ', '|', ' ', 'r', 'e', 'l', 'i', 'b', 'c', ' ', ' ', ' ', ' ', ' ', '|'],
  ['|', ' ', '[', 'x', '8', '6', '_', '6', '4', '-', 'u', 'n', 'k', 'n', 'o', 'w', 'n', '-', 'u', 'e', 'f', 'i', ']', ' ', ' ', ' ', ' ', ' ', ' ', ' ', ' ', ' ', ' ', ' ', ' ', ' ', ' ', ' ', ' ', ' ', ' ', '|', ' ', 'x', '8', '6', '_', '6', '4', ' ', ' ', ' ', ' ', ' ', ' ', '|', ' ', 'u', 'e', 'f', 'i', ' ', ' ', ' ', ' ', ' ', ' ', ' ', '|', ' ', ' ', ' ', ' ', ' ', ' ', ' ', ' ', ' ', ' ', ' ', ' ', '|'],
  [],
  ['#', '#', '#', ' ', 'T', 'i', 'e', 'r', ' ', '3'],
  [],
  ['|', ' ', 't', 'a', 'r', 'g', 'e', 't', ' ', 't', 'r', 'i', 'p', 'l', 'e', ' ', ' ', ' ', ' ', ' ', ' ', ' ', ' ', ' ', ' ', ' ', ' ', ' ', ' ', ' ', ' ', ' ', ' ', ' ', ' ', ' ', ' ', ' ', ' ', ' ', ' ', '|', ' ', 't', 'a', 'r', 'g', 'e', 't', '_', 'a', 'r', 'c', 'h', ' ', '|', ' ', 't', 'a', 'r', 'g', 'e', 't', '_', 'o', 's', ' ', ' ', '|', ' ', 't', 'a', 'r', 'g', 'e', 't', '_', 'e', 'n', 'v', ' ', '|'],
  ['|', '-', '-', '-', '-', '-', '-', '-', '-', '-', '-', '-', '-', '-', '-', '-', '-', '-', '-', '-', '-', '-', '-', '-', '-', '-', '-', '-', '-', '-', '-', '-', '-', '-', '-', '-', '-', '-', '-', '-', '-', '|', '-', '-', '-', '-', '-', '-', '-', '-', '-', '-', '-', '-', '-', '|', '-', '-', '-', '-', '-', '-', '-', '-', '-', '-', '-', '-', '|', '-', '-', '-', '-', '-', '-', '-', '-', '-', '-', '-', '-', '|'],
  ['|', ' ', '[', 'a', 'a', 'r', 'c', 'h', '6', '4', '-', 'k', 'm', 'c', '-', 's', 'o', 'l', 'i', 'd', '_', 'a', 's', 'p', '3', ']', ' ', ' ', ' ', ' ', ' ', ' ', ' ', ' ', ' ', ' ', ' ', ' ', ' ', ' ', ' ', '|', ' ', 'a', 'a', 'r', 'c', 'h', '6', '4', ' ', ' ', ' ', ' ', ' ', '|', ' ', 's', 'o', 'l', 'i', 'd', '_', 'a', 's', 'p', '3', ' ', '|', ' ', ' ', ' ', ' ', ' ', ' ', ' ', ' ', ' ', ' ', ' ', ' ', '|'],
  ['|', ' ', '[', 'a', 'a', 'r', 'c', 'h', '6', '4', '-', 'n', 'i', 'n', 't', 'e', 'n', 'd', 'o', '-', 's', 'w', 'i', 't', 'c', 'h', '-', 'f', 'r', 'e', 'e', 's', 't', 'a', 'n', 'd', 'i', 'n', 'g', ']', ' ', '|', ' ', 'a', 'a', 'r', 'c', 'h', '6', '4', ' ', ' ', ' ', ' ', ' ', '|', ' ', 'h', 'o', 'r', 'i', 'z', 'o', 'n', ' ', ' ', ' ', ' ', '|', ' ', ' ', ' ', ' ', ' ', ' ', ' ', ' ', ' ', ' ', ' ', ' ', '|'],
  ['|', ' ', '[', 'a', 'a', 'r', 'c', 'h', '6', '4', '-', 'o', 'e', '-', 'l', 'i', 'n', 'u', 'x', '-', 'g', 'n', 'u', ']', ' ', ' ', ' ', ' ', ' ', ' ', ' ', ' ', ' ', ' ', ' ', ' ', ' ', ' ', ' ', ' ', ' ', '|', ' ', 'a', 'a', 'r', 'c', 'h', '6', '4', ' ', ' ', ' ', ' ', ' ', '|', ' ', 'l', 'i', 'n', 'u', 'x', ' ', ' ', ' ', ' ', ' ', ' ', '|', ' ', 'g', 'n', 'u', ' ', ' ', ' ', ' ', ' ', ' ', ' ', ' ', '|'],
  ['|', ' ', '[', 'a', 'a', 'r', 'c', 'h', '6', '4', '-', 'u', 'n', 'k', 'n', 'o', 'w', 'n', '-', 'h', 'e', 'l', 'e', 'n', 'o', 's', ']', ' ', ' ', ' ', ' ', ' ', ' ', ' ', ' ', ' ', ' ', ' ', ' ', ' ', ' ', '|', ' ', 'a', 'a', 'r', 'c', 'h', '6', '4', ' ', ' ', ' ', ' ', ' ', '|', ' ', 'h', 'e', 'l', 'e', 'n', 'o', 's', ' ', ' ', ' ', ' ', '|', ' ', ' ', ' ', ' ', ' ', ' ', ' ', ' ', ' ', ' ', ' ', ' ', '|'],
  ['|', ' ', '[', 'a', 'a', 'r', 'c', 'h', '6', '4', '-', 'u', 'n', 'k', 'n', 'o', 'w', 'n', '-', 'h', 'e', 'r', 'm', 'i', 't', ']', ' ', ' ', ' ', ' ', ' ', ' ', ' ', ' ', ' ', ' ', ' ', ' ', ' ', ' ', ' ', '|', ' ', 'a', 'a', 'r', 'c', 'h', '6', '4', ' ', ' ', ' ', ' ', ' ', '|', ' ', 'h', 'e', 'r', 'm', 'i', 't', ' ', ' ', ' ', ' ', ' ', '|', ' ', ' ', ' ', ' ', ' ', ' ', ' ', ' ', ' ', ' ', ' ', ' ', '|'],
  ['|', ' ', '[', 'a', 'a', 'r', 'c', 'h', '6', '4', '-', 'u', 'n', 'k', 'n', 'o', 'w', 'n', '-', 'i', 'l', 'l', 'u', 'm', 'o', 's', ']', ' ', ' ', ' ', ' ', ' ', ' ', ' ', ' ', ' ', ' ', ' ', ' ', ' ', ' ', '|', ' ', 'a', 'a', 'r', 'c', 'h', '6', '4', ' ', ' ', ' ', ' ', ' ', '|', ' ', 'i', 'l', 'l', 'u', 'm', 'o', 's', ' ', ' ', ' ', ' ', '|', ' ', ' ', ' ', ' ', ' ', ' ', ' ', ' ', ' ', ' ', ' ', ' ', '|'],
  ['|', ' ', '[', 'a', 'a', 'r', 'c', 'h', '6', '4', '-', 'u', 'n', 'k', 'n', 'o', 'w', 'n', '-', 'l', '4', 'r', 'e', '-', 'u', 'c', 'l', 'i', 'b', 'c', ']', ' ', ' ', ' ', ' ', ' ', ' ', ' ', ' ', ' ', ' ', '|', ' ', 'a', 'a', 'r', 'c', 'h', '6', '4', ' ', ' ', ' ', ' ', ' ', '|', ' ', 'l', '4', 'r', 'e', ' ', ' ', ' ', ' ', ' ', ' ', ' ', '|', ' ', 'u', 'c', 'l', 'i', 'b', 'c', ' ', ' ', ' ', ' ', ' ', '|'],
  ['|', ' ', '[', 'a', 'a', 'r', 'c', 'h', '6', '4', '-', 'u', 'n', 'k', 'n', 'o', 'w', 'n', '-', 'l', 'i', 'n', 'u', 'x', '-', 'g', 'n', 'u', '_', 'i', 'l', 'p', '3', '2', ']', ' ', ' ', ' ', ' ', ' ', ' ', '|', ' ', 'a', 'a', 'r', 'c', 'h', '6', '4', ' ', ' ', ' ', ' ', ' ', '|', ' ', 'l', 'i', 'n', 'u', 'x', ' ', ' ', ' ', ' ', ' ', ' ', '|', ' ', 'g', 'n', 'u', ' ', ' ', ' ', ' ', ' ', ' ', ' ', ' ', '|'],
  ['|', ' ', '[', 'a', 'a', 'r', 'c', 'h', '6', '4', '-', 'u', 'n', 'k', 'n', 'o', 'w', 'n', '-', 'l', 'i', 'n', 'u', 'x', '-', 'p', 'a', 'u', 't', 'h', 't', 'e', 's', 't', ']', ' ', ' ', ' ', ' ', ' ', ' ', '|', ' ', 'a', 'a', 'r', 'c', 'h', '6', '4', ' ', ' ', ' ', ' ', ' ', '|', ' ', 'l', 'i', 'n', 'u', 'x', ' ', ' ', ' ', ' ', ' ', ' ', '|', ' ', 'm', 'u', 's', 'l', ' ', ' ', ' ', ' ', ' ', ' ', ' ', '|'],
  ['|', ' ', '[', 'a', 'a', 'r', 'c', 'h', '6', '4', '-', 'u', 'n', 'k', 'n', 'o', 'w', 'n', '-', 'm', 'a', 'n', 'a', 'g', 'a', 'r', 'm', '-', 'm', 'l', 'i', 'b', 'c', ']', ' ', ' ', ' ', ' ', ' ', ' ', ' ', '|', ' ', 'a', 'a', 'r', 'c', 'h', '6', '4', ' ', ' ', ' ', ' ', ' ', '|', ' ', 'm', 'a', 'n', 'a', 'g', 'a', 'r', 'm', ' ', ' ', ' ', '|', ' ', 'm', 'l', 'i', 'b', 'c', ' ', ' ', ' ', ' ', ' ', ' ', '|'],
  ['|', ' ', '[', 'a', 'a', 'r', 'c', 'h', '6', '4', '-', 'u', 'n', 'k', 'n', 'o', 'w', 'n', '-', 'n', 'e', 't', 'b', 's', 'd', ']', ' ', ' ', ' ', ' ', ' ', ' ', ' ', ' ', ' ', ' ', ' ', ' ', ' ', ' ', ' ', '|', ' ', 'a', 'a', 'r', 'c', 'h', '6', '4', ' ', ' ', ' ', ' ', ' ', '|', ' ', 'n', 'e', 't', 'b', 's', 'd', ' ', ' ', ' ', ' ', ' ', '|', ' ', ' ', ' ', ' ', ' ', ' ', ' ', ' ', ' ', ' ', ' ', ' ', '|'],
  ['|', ' ', '[', 'a', 'a', 'r', 'c', 'h', '6', '4', '-', 'u', 'n', 'k', 'n', 'o', 'w', 'n', '-', 'n', 't', 'o', '-', 'q', 'n', 'x', '7', '0', '0', ']', ' ', ' ', ' ', ' ', ' ', ' ', ' ', ' ', ' ', ' ', ' ', '|', ' ', 'a', 'a', 'r', 'c', 'h', '6', '4', ' ', ' ', ' ', ' ', ' ', '|', ' ', 'n', 't', 'o', ' ', ' ', ' ', ' ', ' ', ' ', ' ', ' ', '|', ' ', 'n', 't', 'o', '7', '0', ' ', ' ', ' ', ' ', ' ', ' ', '|'],
  ['|', ' ', '[', 'a', 'a', 'r', 'c', 'h', '6', '4', '-', 'u', 'n', 'k', 'n', 'o', 'w', 'n', '-', 'n', 't', 'o', '-', 'q', 'n', 'x', '7', '1', '0', ']', ' ', ' ', ' ', ' ', ' ', ' ', ' ', ' ', ' ', ' ', ' ', '|', ' ', 'a', 'a', 'r', 'c', 'h', '6', '4', ' ', ' ', ' ', ' ', ' ', '|', ' ', 'n', 't', 'o', ' ', ' ', ' ', ' ', ' ', ' ', ' ', ' ', '|', ' ', 'n', 't', 'o', '7', '1', ' ', ' ', ' ', ' ', ' ', ' ', '|'],
  ['|', ' ', '[', 'a', 'a', 'r', 'c', 'h', '6', '4', '-', 'u', 'n', 'k', 'n', 'o', 'w', 'n', '-', 'n', 't', 'o', '-', 'q', 'n', 'x', '7', '1', '0', '_', 'i', 'o', 's', 'o', 'c', 'k', ']', ' ', ' ', ' ', ' ', '|', ' ', 'a', 'a', 'r', 'c', 'h', '6', '4', ' ', ' ', ' ', ' ', ' ', '|', ' ', 'n', 't', 'o', ' ', ' ', ' ', ' ', ' ', ' ', ' ', ' ', '|', ' ', 'n', 't', 'o', '7', '1', '_', 'i', 'o', 's', 'o', 'c', 'k', ' ', '|'],
  ['|', ' ', '[', 'a', 'a', 'r', 'c', 'h', '6', '4', '-', 'u', 'n', 'k', 'n', 'o', 'w', 'n', '-', 'n', 'u', 't', 't', 'x', ']', ' ', ' ', ' ', ' ', ' ', ' ', ' ', ' ', ' ', ' ', ' ', ' ', ' ', ' ', ' ', ' ', '|', ' ', 'a', 'a', 'r', 'c', 'h', '6', '4', ' ', ' ', ' ', ' ', ' ', '|', ' ', 'n', 'u', 't', 't', 'x', ' ', ' ', ' ', ' ', ' ', ' ', '|', ' ', ' ', ' ', ' ', ' ', ' ', ' ', ' ', ' ', ' ', ' ', ' ', '|'],
  ['|', ' ', '[', 'a', 'a', 'r', 'c', 'h', '6', '4', '-', 'u', 'n', 'k', 'n', 'o', 'w', 'n', '-', 'o', 'p', 'e', 'n', 'b', 's', 'd', ']', ' ', ' ', ' ', ' ', ' ', ' ', ' ', ' ', ' ', ' ', ' ', ' ', ' ', ' ', '|', ' ', 'a', 'a', 'r', 'c', 'h', '6', '4', ' ', ' ', ' ', ' ', ' ', '|', ' ', 'o', 'p', 'e', 'n', 'b', 's', 'd', ' ', ' ', ' ', ' ', '|', ' ', ' ', ' ', ' ', ' ', ' ', ' ', ' ', ' ', ' ', ' ', ' ', '|']]

/-- `platforms/README.md:213-237`. -/
def readme6 : List Str := [
  ['|', ' ', '[', 'a', 'a', 'r', 'c', 'h', '6', '4', '-', 'u', 'n', 'k', 'n', 'o', 'w', 'n', '-', 'q', 'n', 'x', ']', ' ', ' ', ' ', ' ', ' ', ' ', ' ', ' ', ' ', ' ', ' ', ' ', ' ', ' ', ' ', ' ', ' ', ' ', '|', ' ', 'a', 'a', 'r', 'c', 'h', '6', '4', ' ', ' ', ' ', ' ', ' ', '|', ' ', 'q', 'n', 'x', ' ', ' ', ' ', ' ', ' ', ' ', ' ', ' ', '|', ' ', ' ', ' ', ' ', ' ', ' ', ' ', ' ', ' ', ' ', ' ', ' ', '|'],
  ['|', ' ', '[', 'a', 'a', 'r', 'c', 'h', '6', '4', '-', 'u', 'n', 'k', 'n', 'o', 'w', 'n', '-', 'r', 'e', 'd', 'o', 'x', ']', ' ', ' ', ' ', ' ', ' ', ' ', ' ', ' ', ' ', ' ', ' ', ' ', ' ', ' ', ' ', ' ', '|', ' ', 'a', 'a', 'r', 'c', 'h', '6', '4', ' ', ' ', ' ', ' ', ' ', '|', ' ', 'r', 'e', 'd', 'o', 'x', ' ', ' ', ' ', ' ', ' ', ' ', '|', ' ', 'r', 'e', 'l', 'i', 'b', 'c', ' ', ' ', ' ', ' ', ' ', '|'],
  ['|', ' ', '[', 'a', 'a', 'r', 'c', 'h', '6', '4', '-', 'u', 'n', 'k', 'n', 'o', 'w', 'n', '-', 't', 'e', 'e', 'o', 's', ']', ' ', ' ', ' ', ' ', ' ', ' ', ' ', ' ', ' ', ' ', ' ', ' ', ' ', ' ', ' ', ' ', '|', ' ', 'a', 'a', 'r', 'c', 'h', '6', '4', ' ', ' ', ' ', ' ', ' ', '|', ' ', 't', 'e', 'e', 'o', 's', ' ', ' ', ' ', ' ', ' ', ' ', '|', ' ', ' ', ' ', ' ', ' ', ' ', ' ', ' ', ' ', ' ', ' ', ' ', '|'],
  ['|', ' ', '[', 'a', 'a', 'r', 'c', 'h', '6', '4', '-', 'u', 'n', 'k', 'n', 'o', 'w', 'n', '-', 't', 'r', 'u', 's', 't', 'y', ']', ' ', ' ', ' ', ' ', ' ', ' ', ' ', ' ', ' ', ' ', ' ', ' ', ' ', ' ', ' ', '|', ' ', 'a', 'a', 'r', 'c', 'h', '6', '4', ' ', ' ', ' ', ' ', ' ', '|', ' ', 't', 'r', 'u', 's', 't', 'y', ' ', ' ', ' ', ' ', ' ', '|', ' ', ' ', ' ', ' ', ' ', ' ', ' ', ' ', ' ', ' ', ' ', ' ', '|'],
  ['|', ' ', '[', 'a', 'a', 'r', 'c', 'h', '6', '4', '-', 'u', 'w', 'p', '-', 'w', 'i', 'n', 'd', 'o', 'w', 's', '-', 'm', 's', 'v', 'c', ']', ' ', ' ', ' ', ' ', ' ', ' ', ' ', ' ', ' ', ' ', ' ', ' ', ' ', '|', ' ', 'a', 'a', 'r', 'c', 'h', '6', '4', ' ', ' ', ' ', ' ', ' ', '|', ' ', 'w', 'i', 'n', 'd', 'o', 'w', 's', ' ', ' ', ' ', ' ', '|', ' ', 'm', 's', 'v', 'c', ' ', ' ', ' ', ' ', ' ', ' ', ' ', '|'],
  ['|', ' ', '[', 'a', 'a', 'r', 'c', 'h', '6', '4', '-', 'w', 'r', 's', '-', 'v', 'x', 'w', 'o', 'r', 'k', 's', ']', ' ', ' ', ' ', ' ', ' ', ' ', ' ', ' ', ' ', ' ', ' ', ' ', ' ', ' ', ' ', ' ', ' ', ' ', '|', ' ', 'a', 'a', 'r', 'c', 'h', '6', '4', ' ', ' ', ' ', ' ', ' ', '|', ' ', 'v', 'x', 'w', 'o', 'r', 'k', 's', ' ', ' ', ' ', ' ', '|', ' ', 'g', 'n', 'u', ' ', ' ', ' ', ' ', ' ', ' ', ' ', ' ', '|'],
  ['|', ' ', '[', 'a', 'a', 'r', 'c', 'h', '6', '4', '_', 'b', 'e', '-', 'u', 'n', 'k', 'n', 'o', 'w', 'n', '-', 'h', 'e', 'r', 'm', 'i', 't', ']', ' ', ' ', ' ', ' ', ' ', ' ', ' ', ' ', ' ', ' ', ' ', ' ', '|', ' ', 'a', 'a', 'r', 'c', 'h', '6', '4', ' ', ' ', ' ', ' ', ' ', '|', ' ', 'h', 'e', 'r', 'm', 'i', 't', ' ', ' ', ' ', ' ', ' ', '|', ' ', ' ', ' ', ' ', ' ', ' ', ' ', ' ', ' ', ' ', ' ', ' ', '|'],
  ['|', ' ', '[', 'a', 'a', 'r', 'c', 'h', '6', '4', '_', 'b', 'e', '-', 'u', 'n', 'k', 'n', 'o', 'w', 'n', '-', 'l', 'i', 'n', 'u', 'x', '-', 'g', 'n', 'u', ']', ' ', ' ', ' ', ' ', ' ', ' ', ' ', ' ', ' ', '|', ' ', 'a', 'a', 'r', 'c', 'h', '6', '4', ' ', ' ', ' ', ' ', ' ', '|', ' ', 'l', 'i', 'n', 'u', 'x', ' ', ' ', ' ', ' ', ' ', ' ', '|', ' ', 'g', 'n', 'u', ' ', ' ', ' ', ' ', ' ', ' ', ' ', ' ', '|'],
  ['|', ' ', '[', 'a', 'a', 'r', 'c', 'h', '6', '4', '_', 'b', 'e', '-', 'u', 'n', 'k', 'n', 'o', 'w', 'n', '-', 'l', 'i', 'n', 'u', 'x', '-', 'g', 'n', 'u', '_', 'i', 'l', 'p', '3', '2', ']', ' ', ' ', ' ', '|', ' ', 'a', 'a', 'r', 'c', 'h', '6', '4', ' ', ' ', ' ', ' ', ' ', '|', ' ', 'l', 'i', 'n', 'u', 'x', ' ', ' ', ' ', ' ', ' ', ' ', '|', ' ', 'g', 'n', 'u', ' ', ' ', ' ', ' ', ' ', ' ', ' ', ' ', '|'],
  ['|', ' ', '[', 'a', 'a', 'r', 'c', 'h', '6', '4', '_', 'b', 'e', '-', 'u', 'n', 'k', 'n', 'o', 'w', 'n', '-', 'l', 'i', 'n', 'u', 'x', '-', 'm', 'u', 's', 'l', ']', ' ', ' ', ' ', ' ', ' ', ' ', ' ', ' ', '|', ' ', 'a', 'a', 'r', 'c', 'h', '6', '4', ' ', ' ', ' ', ' ', ' ', '|', ' ', 'l', 'i', 'n', 'u', 'x', ' ', ' ', ' ', ' ', ' ', ' ', '|', ' ', 'm', 'u', 's', 'l', ' ', ' ', ' ', ' ', ' ', ' ', ' ', '|'],
  ['|', ' ', '[', 'a', 'a', 'r', 'c', 'h', '6', '4', '_', 'b', 'e', '-', 'u', 'n', 'k', 'n', 'o', 'w', 'n', '-', 'n', 'e', 't', 'b', 's', 'd', ']', ' ', ' ', ' ', ' ', ' ', ' ', ' ', ' ', ' ', ' ', ' ', ' ', '|', ' ', 'a', 'a', 'r', 'c', 'h', '6', '4', ' ', ' ', ' ', ' ', ' ', '|', ' ', 'n', 'e', 't', 'b', 's', 'd', ' ', ' ', ' ', ' ', ' ', '|', ' ', ' ', ' ', ' ', ' ', ' ', ' ', ' ', ' ', ' ', ' ', ' ', '|'],
  ['|', ' ', '[', 'a', 'a', 'r', 'c', 'h', '6', '4', '_', 'b', 'e', '-', 'u', 'n', 'k', 'n', 'o', 'w', 'n', '-', 'n', 'o', 'n', 'e', '-', 's', 'o', 'f', 't', 'f', 'l', 'o', 'a', 't', ']', ' ', ' ', ' ', ' ', '|', ' ', 'a', 'a', 'r', 'c', 'h', '6', '4', ' ', ' ', ' ', ' ', ' ', '|', ' ', 'n', 'o', 'n', 'e', ' ', ' ', ' ', ' ', ' ', ' ', ' ', '|', ' ', ' ', ' ', ' ', ' ', ' ', ' ', ' ', ' ', ' ', ' ', ' ', '|'],
  ['|', ' ', '[', 'a', 'a', 'r', 'c', 'h', '6', '4', 'v', '8', 'r', '-', 'u', 'n', 'k', 'n', 'o', 'w', 'n', '-', 'n', 'o', 'n', 'e', ']', ' ', ' ', ' ', ' ', ' ', ' ', ' ', ' ', ' ', ' ', ' ', ' ', ' ', ' ', '|', ' ', 'a', 'a', 'r', 'c', 'h', '6', '4', ' ', ' ', ' ', ' ', ' ', '|', ' ', 'n', 'o', 'n', 'e', ' ', ' ', ' ', ' ', ' ', ' ', ' ', '|', ' ', ' ', ' ', ' ', ' ', ' ', ' ', ' ', ' ', ' ', ' ', ' ', '|'],
  ['|', ' ', '[', 'a', 'a', 'r', 'c', 'h', '6', '4', 'v', '8', 'r', '-', 'u', 'n', 'k', 'n', 'o', 'w', 'n', '-', 'n', 'o', 'n', 'e', '-', 's', 'o', 'f', 't', 'f', 'l', 'o', 'a', 't', ']', ' ', ' ', ' ', ' ', '|', ' ', 'a', 'a', 'r', 'c', 'h', '6', '4', ' ', ' ', ' ', ' ', ' ', '|', ' ', 'n', 'o', 'n', 'e', ' ', ' ', ' ', ' ', ' ', ' ', ' ', '|', ' ', ' ', ' ', ' ', ' ', ' ', ' ', ' ', ' ', ' ', ' ', ' ', '|'],
  ['|', ' ', '[', 'a', 'm', 'd', 'g', 'c', 'n', '-', 'a', 'm', 'd', '-', 'a', 'm', 'd', 'h', 's', 'a', ']', ' ', ' ', ' ', ' ', ' ', ' ', ' ', ' ', ' ', ' ', ' ', ' ', ' ', ' ', ' ', ' ', ' ', ' ', ' ', ' ', '|', ' ', 'a', 'm', 'd', 'g', 'p', 'u', ' ', ' ', ' ', ' ', ' ', ' ', '|', ' ', 'a', 'm', 'd', 'h', 's', 'a', ' ', ' ', ' ', ' ', ' ', '|', ' ', ' ', ' ', ' ', ' ', ' ', ' ', ' ', ' ', ' ', ' ', ' ', '|'],
  ['|', ' ', '[', 'a', 'r', 'm', '6', '4', '_', '3', '2', '-', 'a', 'p', 'p', 'l', 'e', '-', 'w', 'a', 't', 'c', 'h', 'o', 's', ']', ' ', ' ', ' ', ' ', ' ', ' ', ' ', ' ', ' ', ' ', ' ', ' ', ' ', ' ', ' ', '|', ' ', 'a', 'a', 'r', 'c', 'h', '6', '4', ' ', ' ', ' ', ' ', ' ', '|', ' ', 'w', 'a', 't', 'c', 'h', 'o', 's', ' ', ' ', ' ', ' ', '|', ' ', ' ', ' ', ' ', ' ', ' ', ' ', ' ', ' ', ' ', ' ', ' ', '|'],
  ['|', ' ', '[', 'a', 'r', 'm', '6', '4', 'e', '-', 'a', 'p', 'p', 'l', 'e', '-', 'd', 'a', 'r', 'w', 'i', 'n', ']', ' ', ' ', ' ', ' ', ' ', ' ', ' ', ' ', ' ', ' ', ' ', ' ', ' ', ' ', ' ', ' ', ' ', ' ', '|', ' ', 'a', 'a', 'r', 'c', 'h', '6', '4', ' ', ' ', ' ', ' ', ' ', '|', ' ', 'm', 'a', 'c', 'o', 's', ' ', ' ', ' ', ' ', ' ', ' ', '|', ' ', ' ', ' ', ' ', ' ', ' ', ' ', ' ', ' ', ' ', ' ', ' ', '|'],
  ['|', ' ', '[', 'a', 'r', 'm', '6', '4', 'e', '-', 'a', 'p', 'p', 'l', 'e', '-', 'i', 'o', 's', ']', ' ', ' ', ' ', ' ', ' ', ' ', ' ', ' ', ' ', ' ', ' ', ' ', ' ', ' ', ' ', ' ', ' ', ' ', ' ', ' ', ' ', '|', ' ', 'a', 'a', 'r', 'c', 'h', '6', '4', ' ', ' ', ' ', ' ', ' ', '|', ' ', 'i', 'o', 's', ' ', ' ', ' ', ' ', ' ', ' ', ' ', ' ', '|', ' ', ' ', ' ', ' ', ' ', ' ', ' ', ' ', ' ', ' ', ' ', ' ', '|'],
  ['|', ' ', '[', 'a', 'r', 'm', '6', '4', 'e', '-', 'a', 'p', 'p', 'l', 'e', '-', 't', 'v', 'o', 's', ']', ' ', ' ', ' ', ' ', ' ', ' ', ' ', ' ', ' ', ' ', ' ', ' ', ' ', ' ', ' ', ' ', ' ', ' ', ' ', ' ', '|', ' ', 'a', 'a', 'r', 'c', 'h', '6', '4', ' ', ' ', ' ', ' ', ' ', '|', ' ', 't', 'v', 'o', 's', ' ', ' ', ' ', ' ', ' ', ' ', ' ', '|', ' ', ' ', ' ', ' ', ' ', ' ', ' ', ' ', ' ', ' ', ' ', ' ', '|'],
  ['|', ' ', '[', 'a', 'r', 'm', 'e', 'b', '-', 'u', 'n', 'k', 'n', 'o', 'w', 'n', '-', 'l', 'i', 'n', 'u', 'x', '-', 'g', 'n', 'u', 'e', 'a', 'b', 'i', ']', ' ', ' ', ' ', ' ', ' ', ' ', ' ', ' ', ' ', ' ', '|', ' ', 'a', 'r', 'm', ' ', ' ', ' ', ' ', ' ', ' ', ' ', ' ', ' ', '|', ' ', 'l', 'i', 'n', 'u', 'x', ' ', ' ', ' ', ' ', ' ', ' ', '|', ' ', 'g', 'n', 'u', ' ', ' ', ' ', ' ', ' ', ' ', ' ', ' ', '|'],
  ['|', ' ', '[', 'a', 'r', 'm', 'e', 'b', 'v', '7', 'r', '-', 'n', 'o', 'n', 'e', '-', 'e', 'a', 'b', 'i', ']', ' ', ' ', ' ', ' ', ' ', ' ', ' ', ' ', ' ', ' ', ' ', ' ', ' ', ' ', ' ', ' ', ' ', ' ', ' ', '|', ' ', 'a', 'r', 'm', ' ', ' ', ' ', ' ', ' ', ' ', ' ', ' ', ' ', '|', ' ', 'n', 'o', 'n', 'e', ' ', ' ', ' ', ' ', ' ', ' ', ' ', '|', ' ', ' ', ' ', ' ', ' ', ' ', ' ', ' ', ' ', ' ', ' ', ' ', '|'],
  ['|', ' ', '[', 'a', 'r', 'm', 'e', 'b', 'v', '7', 'r', '-', 'n', 'o', 'n', 'e', '-', 'e', 'a', 'b', 'i', 'h', 'f', ']', ' ', ' ', ' ', ' ', ' ', ' ', ' ', ' ', ' ', ' ', ' ', ' ', ' ', ' ', ' ', ' ', ' ', '|', ' ', 'a', 'r', 'm', ' ', ' ', ' ', ' ', ' ', ' ', ' ', ' ', ' ', '|', ' ', 'n', 'o', 'n', 'e', ' ', ' ', ' ', ' ', ' ', ' ', ' ', '|', ' ', ' ', ' ', ' ', ' ', ' ', ' ', ' ', ' ', ' ', ' ', ' ', '|'],
  ['|', ' ', '[', 'a', 'r', 'm', 'v', '4', 't', '-', 'n', 'o', 'n', 'e', '-', 'e', 'a', 'b', 'i', ']', ' ', ' ', ' ', ' ', ' ', ' ', ' ', ' ', ' ', ' ', ' ', ' ', ' ', ' ', ' ', ' ', ' ', ' ', ' ', ' ', ' ', '|', ' ', 'a', 'r', 'm', ' ', ' ', ' ', ' ', ' ', ' ', ' ', ' ', ' ', '|', ' ', 'n', 'o', 'n', 'e', ' ', ' ', ' ', ' ', ' ', ' ', ' ', '|', ' ', ' ', ' ', ' ', ' ', ' ', ' ', ' ', ' ', ' ', ' ', ' ', '|'],
  ['|', ' ', '[', 'a', 'r', 'm', 'v', '4', 't', '-', 'u', 'n', 'k', 'n', 'o', 'w', 'n', '-', 'l', 'i', 'n', 'u', 'x', '-', 'g', 'n', 'u', 'e', 'a', 'b', 'i', ']', ' ', ' ', ' ', ' ', ' ', ' ', ' ', ' ', ' ', '|', ' ', 'a', 'r', 'm', ' ', ' ', ' ', ' ', ' ', ' ', ' ', ' ', ' ', '|', ' ', 'l', 'i', 'n', 'u', 'x', ' ', ' ', ' ', ' ', ' ', ' ', '|', ' ', 'g', 'n', 'u', ' ', ' ', ' ', ' ', ' ', ' ', ' ', ' ', '|'],
  ['|', ' ', '[', 'a', 'r', 'm', 'v', '5', 't', 'e', '-', 'n', 'o', 'n', 'e', '-', 'e', 'a', 'b', 'i', ']', ' ', ' ', ' ', ' ', ' ', ' ', ' ', ' ', ' ', ' ', ' ', ' ', ' ', ' ', ' ', ' ', ' ', ' ', ' ', ' ', '|', ' ', 'a', 'r', 'm', ' ', ' ', ' ', ' ', ' ', ' ', ' ', ' ', ' ', '|', ' ', 'n', 'o', 'n', 'e', ' ', ' ', ' ', ' ', ' ', ' ', ' ', '|', ' ', ' ', ' ', ' ', ' ', ' ', ' ', ' ', ' ', ' ', ' ', ' ', '|']]

/-- `platforms/README.md:238-262`. -/
def readme7 : List Str := [
  ['|', ' ', '[', 'a', 'r', 'm', 'v', '5', 't', 'e', '-', 'u', 'n', 'k', 'n', 'o', 'w', 'n', '-', 'l', 'i', 'n', 'u', 'x', '-', 'u', 'c', 'l', 'i', 'b', 'c', 'e', 'a', 'b', 'i', ']', ' ', ' ', ' ', ' ', ' ', '|', ' ', 'a', 'r', 'm', ' ', ' ', ' ', ' ', ' ', ' ', ' ', ' ', ' ', '|', ' ', 'l', 'i', 'n', 'u', 'x', ' ', ' ', ' ', ' ', ' ', ' ', '|', ' ', 'u', 'c', 'l', 'i', 'b', 'c', ' ', ' ', ' ', ' ', ' ', '|'],
  ['|', ' ', '[', 'a', 'r', 'm', 'v', '6', '-', 'n', 'o', 'n', 'e', '-', 'e', 'a', 'b', 'i', ']', ' ', ' ', ' ', ' ', ' ', ' ', ' ', ' ', ' ', ' ', ' ', ' ', ' ', ' ', ' ', ' ', ' ', ' ', ' ', ' ', ' ', ' ', '|', ' ', 'a', 'r', 'm', ' ', ' ', ' ', ' ', ' ', ' ', ' ', ' ', ' ', '|', ' ', 'n', 'o', 'n', 'e', ' ', ' ', ' ', ' ', ' ', ' ', ' ', '|', ' ', ' ', ' ', ' ', ' ', ' ', ' ', ' ', ' ', ' ', ' ', ' ', '|'],
  ['|', ' ', '[', 'a', 'r', 'm', 'v', '6', '-', 'n', 'o', 'n', 'e', '-', 'e', 'a', 'b', 'i', 'h', 'f', ']', ' ', ' ', ' ', ' ', ' ', ' ', ' ', ' ', ' ', ' ', ' ', ' ', ' ', ' ', ' ', ' ', ' ', ' ', ' ', ' ', '|', ' ', 'a', 'r', 'm', ' ', ' ', ' ', ' ', ' ', ' ', ' ', ' ', ' ', '|', ' ', 'n', 'o', 'n', 'e', ' ', ' ', ' ', ' ', ' ', ' ', ' ', '|', ' ', ' ', ' ', ' ', ' ', ' ', ' ', ' ', ' ', ' ', ' ', ' ', '|'],
  ['|', ' ', '[', 'a', 'r', 'm', 'v', '6', '-', 'u', 'n', 'k', 'n', 'o', 'w', 'n', '-', 'f', 'r', 'e', 'e', 'b', 's', 'd', ']', ' ', ' ', ' ', ' ', ' ', ' ', ' ', ' ', ' ', ' ', ' ', ' ', ' ', ' ', ' ', ' ', '|', ' ', 'a', 'r', 'm', ' ', ' ', ' ', ' ', ' ', ' ', ' ', ' ', ' ', '|', ' ', 'f', 'r', 'e', 'e', 'b', 's', 'd', ' ', ' ', ' ', ' ', '|', ' ', ' ', ' ', ' ', ' ', ' ', ' ', ' ', ' ', ' ', ' ', ' ', '|'],
  ['|', ' ', '[', 'a', 'r', 'm', 'v', '6', '-', 'u', 'n', 'k', 'n', 'o', 'w', 'n', '-', 'n', 'e', 't', 'b', 's', 'd', '-', 'e', 'a', 'b', 'i', 'h', 'f', ']', ' ', ' ', ' ', ' ', ' ', ' ', ' ', ' ', ' ', ' ', '|', ' ', 'a', 'r', 'm', ' ', ' ', ' ', ' ', ' ', ' ', ' ', ' ', ' ', '|', ' ', 'n', 'e', 't', 'b', 's', 'd', ' ', ' ', ' ', ' ', ' ', '|', ' ', ' ', ' ', ' ', ' ', ' ', ' ', ' ', ' ', ' ', ' ', ' ', '|'],
  ['|', ' ', '[', 'a', 'r', 'm', 'v', '6', 'k', '-', 'n', 'i', 'n', 't', 'e', 'n', 'd', 'o', '-', '3', 'd', 's', ']', ' ', ' ', ' ', ' ', ' ', ' ', ' ', ' ', ' ', ' ', ' ', ' ', ' ', ' ', ' ', ' ', ' ', ' ', '|', ' ', 'a', 'r', 'm', ' ', ' ', ' ', ' ', ' ', ' ', ' ', ' ', ' ', '|', ' ', 'h', 'o', 'r', 'i', 'z', 'o', 'n', ' ', ' ', ' ', ' ', '|', ' ', 'n', 'e', 'w', 'l', 'i', 'b', ' ', ' ', ' ', ' ', ' ', '|'],
  ['|', ' ', '[', 'a', 'r', 'm', 'v', '7', '-', 'o', 'e', '-', 'l', 'i', 'n', 'u', 'x', '-', 'g', 'n', 'u', 'e', 'a', 'b', 'i', 'h', 'f', ']', ' ', ' ', ' ', ' ', ' ', ' ', ' ', ' ', ' ', ' ', ' ', ' ', ' ', '|', ' ', 'a', 'r', 'm', ' ', ' ', ' ', ' ', ' ', ' ', ' ', ' ', ' ', '|', ' ', 'l', 'i', 'n', 'u', 'x', ' ', ' ', ' ', ' ', ' ', ' ', '|', ' ', 'g', 'n', 'u', ' ', ' ', ' ', ' ', ' ', ' ', ' ', ' ', '|'],
  ['|', ' ', '[', 'a', 'r', 'm', 'v', '7', '-', 'r', 't', 'e', 'm', 's', '-', 'e', 'a', 'b', 'i', 'h', 'f', ']', ' ', ' ', ' ', ' ', ' ', ' ', ' ', ' ', ' ', ' ', ' ', ' ', ' ', ' ', ' ', ' ', ' ', ' ', ' ', '|', ' ', 'a', 'r', 'm', ' ', ' ', ' ', ' ', ' ', ' ', ' ', ' ', ' ', '|', ' ', 'r', 't', 'e', 'm', 's', ' ', ' ', ' ', ' ', ' ', ' ', '|', ' ', 'n', 'e', 'w', 'l', 'i', 'b', ' ', ' ', ' ', ' ', ' ', '|'],
  ['|', ' ', '[', 'a', 'r', 'm', 'v', '7', '-', 's', 'o', 'n', 'y', '-', 'v', 'i', 't', 'a', '-', 'n', 'e', 'w', 'l', 'i', 'b', 'e', 'a', 'b', 'i', 'h', 'f', ']', ' ', ' ', ' ', ' ', ' ', ' ', ' ', ' ', ' ', '|', ' ', 'a', 'r', 'm', ' ', ' ', ' ', ' ', ' ', ' ', ' ', ' ', ' ', '|', ' ', 'v', 'i', 't', 'a', ' ', ' ', ' ', ' ', ' ', ' ', ' ', '|', ' ', 'n', 'e', 'w', 'l', 'i', 'b', ' ', ' ', ' ', ' ', ' ', '|'],
  ['|', ' ', '[', 'a', 'r', 'm', 'v', '7', '-', 'u', 'n', 'k', 'n', 'o', 'w', 'n', '-', 'f', 'r', 'e', 'e', 'b', 's', 'd', ']', ' ', ' ', ' ', ' ', ' ', ' ', ' ', ' ', ' ', ' ', ' ', ' ', ' ', ' ', ' ', ' ', '|', ' ', 'a', 'r', 'm', ' ', ' ', ' ', ' ', ' ', ' ', ' ', ' ', ' ', '|', ' ', 'f', 'r', 'e', 'e', 'b', 's', 'd', ' ', ' ', ' ', ' ', '|', ' ', ' ', ' ', ' ', ' ', ' ', ' ', ' ', ' ', ' ', ' ', ' ', '|'],
  ['|', ' ', '[', 'a', 'r', 'm', 'v', '7', '-', 'u', 'n', 'k', 'n', 'o', 'w', 'n', '-', 'l', 'i', 'n', 'u', 'x', '-', 'u', 'c', 'l', 'i', 'b', 'c', 'e', 'a', 'b', 'i', ']', ' ', ' ', ' ', ' ', ' ', ' ', ' ', '|', ' ', 'a', 'r', 'm', ' ', ' ', ' ', ' ', ' ', ' ', ' ', ' ', ' ', '|', ' ', 'l', 'i', 'n', 'u', 'x', ' ', ' ', ' ', ' ', ' ', ' ', '|', ' ', 'u', 'c', 'l', 'i', 'b', 'c', ' ', ' ', ' ', ' ', ' ', '|'],
  ['|', ' ', '[', 'a', 'r', 'm', 'v', '7', '-', 'u', 'n', 'k', 'n', 'o', 'w', 'n', '-', 'l', 'i', 'n', 'u', 'x', '-', 'u', 'c', 'l', 'i', 'b', 'c', 'e', 'a', 'b', 'i', 'h', 'f', ']', ' ', ' ', ' ', ' ', ' ', '|', ' ', 'a', 'r', 'm', ' ', ' ', ' ', ' ', ' ', ' ', ' ', ' ', ' ', '|', ' ', 'l', 'i', 'n', 'u', 'x', ' ', ' ', ' ', ' ', ' ', ' ', '|', ' ', 'u', 'c', 'l', 'i', 'b', 'c', ' ', ' ', ' ', ' ', ' ', '|'],
  ['|', ' ', '[', 'a', 'r', 'm', 'v', '7', '-', 'u', 'n', 'k', 'n', 'o', 'w', 'n', '-', 'n', 'e', 't', 'b', 's', 'd', '-', 'e', 'a', 'b', 'i', 'h', 'f', ']', ' ', ' ', ' ', ' ', ' ', ' ', ' ', ' ', ' ', ' ', '|', ' ', 'a', 'r', 'm', ' ', ' ', ' ', ' ', ' ', ' ', ' ', ' ', ' ', '|', ' ', 'n', 'e', 't', 'b', 's', 'd', ' ', ' ', ' ', ' ', ' ', '|', ' ', ' ', ' ', ' ', ' ', ' ', ' ', ' ', ' ', ' ', ' ', ' ', '|'],
  ['|', ' ', '[', 'a', 'r', 'm', 'v', '7', '-', 'u', 'n', 'k', 'n', 'o', 'w', 'n', '-', 't', 'r', 'u', 's', 't', 'y', ']', ' ', ' ', ' ', ' ', ' ', ' ', ' ', ' ', ' ', ' ', ' ', ' ', ' ', ' ', ' ', ' ', ' ', '|', ' ', 'a', 'r', 'm', ' ', ' ', ' ', ' ', ' ', ' ', ' ', ' ', ' ', '|', ' ', 't', 'r', 'u', 's', 't', 'y', ' ', ' ', ' ', ' ', ' ', '|', ' ', ' ', ' ', ' ', ' ', ' ', ' ', ' ', ' ', ' ', ' ', ' ', '|'],
  ['|', ' ', '[', 'a', 'r', 'm', 'v', '7', '-', 'w', 'r', 's', '-', 'v', 'x', 'w', 'o', 'r', 'k', 's', '-', 'e', 'a', 'b', 'i', 'h', 'f', ']', ' ', ' ', ' ', ' ', ' ', ' ', ' ', ' ', ' ', ' ', ' ', ' ', ' ', '|', ' ', 'a', 'r', 'm', ' ', ' ', ' ', ' ', ' ', ' ', ' ', ' ', ' ', '|', ' ', 'v', 'x', 'w', 'o', 'r', 'k', 's', ' ', ' ', ' ', ' ', '|', ' ', 'g', 'n', 'u', ' ', ' ', ' ', ' ', ' ', ' ', ' ', ' ', '|'],
  ['|', ' ', '[', 'a', 'r', 'm', 'v', '7', 'a', '-', 'k', 'm', 'c', '-', 's', 'o', 'l', 'i', 'd', '_', 'a', 's', 'p', '3', '-', 'e', 'a', 'b', 'i', ']', ' ', ' ', ' ', ' ', ' ', ' ', ' ', ' ', ' ', ' ', ' ', '|', ' ', 'a', 'r', 'm', ' ', ' ', ' ', ' ', ' ', ' ', ' ', ' ', ' ', '|', ' ', 's', 'o', 'l', 'i', 'd', '_', 'a', 's', 'p', '3', ' ', '|', ' ', ' ', ' ', ' ', ' ', ' ', ' ', ' ', ' ', ' ', ' ', ' ', '|'],
  ['|', ' ', '[', 'a', 'r', 'm', 'v', '7', 'a', '-', 'k', 'm', 'c', '-', 's', 'o', 'l', 'i', 'd', '_', 'a', 's', 'p', '3', '-', 'e', 'a', 'b', 'i', 'h', 'f', ']', ' ', ' ', ' ', ' ', ' ', ' ', ' ', ' ', ' ', '|', ' ', 'a', 'r', 'm', ' ', ' ', ' ', ' ', ' ', ' ', ' ', ' ', ' ', '|', ' ', 's', 'o', 'l', 'i', 'd', '_', 'a', 's', 'p', '3', ' ', '|', ' ', ' ', ' ', ' ', ' ', ' ', ' ', ' ', ' ', ' ', ' ', ' ', '|'],
  ['|', ' ', '[', 'a', 'r', 'm', 'v', '7', 'a', '-', 'n', 'u', 't', 't', 'x', '-', 'e', 'a', 'b', 'i', ']', ' ', ' ', ' ', ' ', ' ', ' ', ' ', ' ', ' ', ' ', ' ', ' ', ' ', ' ', ' ', ' ', ' ', ' ', ' ', ' ', '|', ' ', 'a', 'r', 'm', ' ', ' ', ' ', ' ', ' ', ' ', ' ', ' ', ' ', '|', ' ', 'n', 'u', 't', 't', 'x', ' ', ' ', ' ', ' ', ' ', ' ', '|', ' ', ' ', ' ', ' ', ' ', ' ', ' ', ' ', ' ', ' ', ' ', ' ', '|'],
  ['|', ' ', '[', 'a', 'r', 'm', 'v', '7', 'a', '-', 'n', 'u', 't', 't', 'x', '-', 'e', 'a', 'b', 'i', 'h', 'f', ']', ' ', ' ', ' ', ' ', ' ', ' ', ' ', ' ', ' ', ' ', ' ', ' ', ' ', ' ', ' ', ' ', ' ', ' ', '|', ' ', 'a', 'r', 'm', ' ', ' ', ' ', ' ', ' ', ' ', ' ', ' ', ' ', '|', ' ', 'n', 'u', 't', 't', 'x', ' ', ' ', ' ', ' ', ' ', ' ', '|', ' ', ' ', ' ', ' ', ' ', ' ', ' ', ' ', ' ', ' ', ' ', ' ', '|'],
  ['|', ' ', '[', 'a', 'r', 'm', 'v', '7', 'k', '-', 'a', 'p', 'p', 'l', 'e', '-', 'w', 'a', 't', 'c', 'h', 'o', 's', ']', ' ', ' ', ' ', ' ', ' ', ' ', ' ', ' ', ' ', ' ', ' ', ' ', ' ', ' ', ' ', ' ', ' ', '|', ' ', 'a', 'r', 'm', ' ', ' ', ' ', ' ', ' ', ' ', ' ', ' ', ' ', '|', ' ', 'w', 'a', 't', 'c', 'h', 'o', 's', ' ', ' ', ' ', ' ', '|', ' ', ' ', ' ', ' ', ' ', ' ', ' ', ' ', ' ', ' ', ' ', ' ', '|'],
  ['|', ' ', '[', 'a', 'r', 'm', 'v', '7', 's', '-', 'a', 'p', 'p', 'l', 'e', '-', 'i', 'o', 's', ']', ' ', ' ', ' ', ' ', ' ', ' ', ' ', ' ', ' ', ' ', ' ', ' ', ' ', ' ', ' ', ' ', ' ', ' ', ' ', ' ', ' ', '|', ' ', 'a', 'r', 'm', ' ', ' ', ' ', ' ', ' ', ' ', ' ', ' ', ' ', '|', ' ', 'i', 'o', 's', ' ', ' ', ' ', ' ', ' ', ' ', ' ', ' ', '|', ' ', ' ', ' ', ' ', ' ', ' ', ' ', ' ', ' ', ' ', ' ', ' ', '|'],
  ['|', ' ', '[', 'a', 'v', 'r', '-', 'n', 'o', 'n', 'e', ']', ' ', ' ', ' ', ' ', ' ', ' ', ' ', ' ', ' ', ' ', ' ', ' ', ' ', ' ', ' ', ' ', ' ', ' ', ' ', ' ', ' ', ' ', ' ', ' ', ' ', ' ', ' ', ' ', ' ', '|', ' ', 'a', 'v', 'r', ' ', ' ', ' ', ' ', ' ', ' ', ' ', ' ', ' ', '|', ' ', 'n', 'o', 'n', 'e', ' ', ' ', ' ', ' ', ' ', ' ', ' ', '|', ' ', ' ', ' ', ' ', ' ', ' ', ' ', ' ', ' ', ' ', ' ', ' ', '|'],
  ['|', ' ', '[', 'b', 'p', 'f', 'e', 'b', '-', 'u', 'n', 'k', 'n', 'o', 'w', 'n', '-', 'n', 'o', 'n', 'e', ']', ' ', ' ', ' ', ' ', ' ', ' ', ' ', ' ', ' ', ' ', ' ', ' ', ' ', ' ', ' ', ' ', ' ', ' ', ' ', '|', ' ', 'b', 'p', 'f', ' ', ' ', ' ', ' ', ' ', ' ', ' ', ' ', ' ', '|', ' ', 'n', 'o', 'n', 'e', ' ', ' ', ' ', ' ', ' ', ' ', ' ', '|', ' ', ' ', ' ', ' ', ' ', ' ', ' ', ' ', ' ', ' ', ' ', ' ', '|'],
  ['|', ' ', '[', 'b', 'p', 'f', 'e', 'l', '-', 'u', 'n', 'k', 'n', 'o', 'w', 'n', '-', 'n', 'o', 'n', 'e', ']', ' ', ' ', ' ', ' ', ' ', ' ', ' ', ' ', ' ', ' ', ' ', ' ', ' ', ' ', ' ', ' ', ' ', ' ', ' ', '|', ' ', 'b', 'p', 'f', ' ', ' ', ' ', ' ', ' ', ' ', ' ', ' ', ' ', '|', ' ', 'n', 'o', 'n', 'e', ' ', ' ', ' ', ' ', ' ', ' ', ' ', '|', ' ', ' ', ' ', ' ', ' ', ' ', ' ', ' ', ' ', ' ', ' ', ' ', '|'],
  ['|', ' ', '[', 'c', 's', 'k', 'y', '-', 'u', 'n', 'k', 'n', 'o', 'w', 'n', '-', 'l', 'i', 'n', 'u', 'x', '-', 'g', 'n', 'u', 'a', 'b', 'i', 'v', '2', ']', ' ', ' ', ' ', ' ', ' ', ' ', ' ', ' ', ' ', ' ', '|', ' ', 'c', 's', 'k', 'y', ' ', ' ', ' ', ' ', ' ', ' ', ' ', ' ', '|', ' ', 'l', 'i', 'n', 'u', 'x', ' ', ' ', ' ', ' ', ' ', ' ', '|', ' ', 'g', 'n', 'u', ' ', ' ', ' ', ' ', ' ', ' ', ' ', ' ', '|']]

/-- `platforms/README.md:263-287`. -/
def readme8 : List Str := [
  ['|', ' ', '[', 'c', 's', 'k', 'y', '-', 'u', 'n', 'k', 'n', 'o', 'w', 'n', '-', 'l', 'i', 'n', 'u', 'x', '-', 'g', 'n', 'u', 'a', 'b', 'i', 'v', '2', 'h', 'f', ']', ' ', ' ', ' ', ' ', ' ', ' ', ' ', ' ', '|', ' ', 'c', 's', 'k', 'y', ' ', ' ', ' ', ' ', ' ', ' ', ' ', ' ', '|', ' ', 'l', 'i', 'n', 'u', 'x', ' ', ' ', ' ', ' ', ' ', ' ', '|', ' ', 'g', 'n', 'u', ' ', ' ', ' ', ' ', ' ', ' ', ' ', ' ', '|'],
  ['|', ' ', '[', 'h', 'e', 'x', 'a', 'g', 'o', 'n', '-', 'u', 'n', 'k', 'n', 'o', 'w', 'n', '-', 'l', 'i', 'n', 'u', 'x', '-', 'm', 'u', 's', 'l', ']', ' ', ' ', ' ', ' ', ' ', ' ', ' ', ' ', ' ', ' ', ' ', '|', ' ', 'h', 'e', 'x', 'a', 'g', 'o', 'n', ' ', ' ', ' ', ' ', ' ', '|', ' ', 'l', 'i', 'n', 'u', 'x', ' ', ' ', ' ', ' ', ' ', ' ', '|', ' ', 'm', 'u', 's', 'l', ' ', ' ', ' ', ' ', ' ', ' ', ' ', '|'],
  ['|', ' ', '[', 'h', 'e', 'x', 'a', 'g', 'o', 'n', '-', 'u', 'n', 'k', 'n', 'o', 'w', 'n', '-', 'n', 'o', 'n', 'e', '-', 'e', 'l', 'f', ']', ' ', ' ', ' ', ' ', ' ', ' ', ' ', ' ', ' ', ' ', ' ', ' ', ' ', '|', ' ', 'h', 'e', 'x', 'a', 'g', 'o', 'n', ' ', ' ', ' ', ' ', ' ', '|', ' ', 'n', 'o', 'n', 'e', ' ', ' ', ' ', ' ', ' ', ' ', ' ', '|', ' ', ' ', ' ', ' ', ' ', ' ', ' ', ' ', ' ', ' ', ' ', ' ', '|'],
  ['|', ' ', '[', 'h', 'e', 'x', 'a', 'g', 'o', 'n', '-', 'u', 'n', 'k', 'n', 'o', 'w', 'n', '-', 'q', 'u', 'r', 't', ']', ' ', ' ', ' ', ' ', ' ', ' ', ' ', ' ', ' ', ' ', ' ', ' ', ' ', ' ', ' ', ' ', ' ', '|', ' ', 'h', 'e', 'x', 'a', 'g', 'o', 'n', ' ', ' ', ' ', ' ', ' ', '|', ' ', 'q', 'u', 'r', 't', ' ', ' ', ' ', ' ', ' ', ' ', ' ', '|', ' ', ' ', ' ', ' ', ' ', ' ', ' ', ' ', ' ', ' ', ' ', ' ', '|'],
  ['|', ' ', '[', 'i', '3', '8', '6', '-', 'a', 'p', 'p', 'l', 'e', '-', 'i', 'o', 's', ']', ' ', ' ', ' ', ' ', ' ', ' ', ' ', ' ', ' ', ' ', ' ', ' ', ' ', ' ', ' ', ' ', ' ', ' ', ' ', ' ', ' ', ' ', ' ', '|', ' ', 'x', '8', '6', ' ', ' ', ' ', ' ', ' ', ' ', ' ', ' ', ' ', '|', ' ', 'i', 'o', 's', ' ', ' ', ' ', ' ', ' ', ' ', ' ', ' ', '|', ' ', 's', 'i', 'm', ' ', ' ', ' ', ' ', ' ', ' ', ' ', ' ', '|'],
  ['|', ' ', '[', 'i', '5', '8', '6', '-', 'u', 'n', 'k', 'n', 'o', 'w', 'n', '-', 'n', 'e', 't', 'b', 's', 'd', ']', ' ', ' ', ' ', ' ', ' ', ' ', ' ', ' ', ' ', ' ', ' ', ' ', ' ', ' ', ' ', ' ', ' ', ' ', '|', ' ', 'x', '8', '6', ' ', ' ', ' ', ' ', ' ', ' ', ' ', ' ', ' ', '|', ' ', 'n', 'e', 't', 'b', 's', 'd', ' ', ' ', ' ', ' ', ' ', '|', ' ', ' ', ' ', ' ', ' ', ' ', ' ', ' ', ' ', ' ', ' ', ' ', '|'],
  ['|', ' ', '[', 'i', '5', '8', '6', '-', 'u', 'n', 'k', 'n', 'o', 'w', 'n', '-', 'r', 'e', 'd', 'o', 'x', ']', ' ', ' ', ' ', ' ', ' ', ' ', ' ', ' ', ' ', ' ', ' ', ' ', ' ', ' ', ' ', ' ', ' ', ' ', ' ', '|', ' ', 'x', '8', '6', ' ', ' ', ' ', ' ', ' ', ' ', ' ', ' ', ' ', '|', ' ', 'r', 'e', 'd', 'o', 'x', ' ', ' ', ' ', ' ', ' ', ' ', '|', ' ', 'r', 'e', 'l', 'i', 'b', 'c', ' ', ' ', ' ', ' ', ' ', '|'],
  ['|', ' ', '[', 'i', '6', '8', '6', '-', 'a', 'p', 'p', 'l', 'e', '-', 'd', 'a', 'r', 'w', 'i', 'n', ']', ' ', ' ', ' ', ' ', ' ', ' ', ' ', ' ', ' ', ' ', ' ', ' ', ' ', ' ', ' ', ' ', ' ', ' ', ' ', ' ', '|', ' ', 'x', '8', '6', ' ', ' ', ' ', ' ', ' ', ' ', ' ', ' ', ' ', '|', ' ', 'm', 'a', 'c', 'o', 's', ' ', ' ', ' ', ' ', ' ', ' ', '|', ' ', ' ', ' ', ' ', ' ', ' ', ' ', ' ', ' ', ' ', ' ', ' ', '|'],
  ['|', ' ', '[', 'i', '6', '8', '6', '-', 'o', 'e', '-', 'l', 'i', 'n', 'u', 'x', '-', 'g', 'n', 'u', ']', ' ', ' ', ' ', ' ', ' ', ' ', ' ', ' ', ' ', ' ', ' ', ' ', ' ', ' ', ' ', ' ', ' ', ' ', ' ', ' ', '|', ' ', 'x', '8', '6', ' ', ' ', ' ', ' ', ' ', ' ', ' ', ' ', ' ', '|', ' ', 'l', 'i', 'n', 'u', 'x', ' ', ' ', ' ', ' ', ' ', ' ', '|', ' ', 'g', 'n', 'u', ' ', ' ', ' ', ' ', ' ', ' ', ' ', ' ', '|'],
  ['|', ' ', '[', 'i', '6', '8', '6', '-', 'p', 'c', '-', 'n', 't', 'o', '-', 'q', 'n', 'x', '7', '0', '0', ']', ' ', ' ', ' ', ' ', ' ', ' ', ' ', ' ', ' ', ' ', ' ', ' ', ' ', ' ', ' ', ' ', ' ', ' ', ' ', '|', ' ', 'x', '8', '6', ' ', ' ', ' ', ' ', ' ', ' ', ' ', ' ', ' ', '|', ' ', 'n', 't', 'o', ' ', ' ', ' ', ' ', ' ', ' ', ' ', ' ', '|', ' ', 'n', 't', 'o', '7', '0', ' ', ' ', ' ', ' ', ' ', ' ', '|'],
  ['|', ' ', '[', 'i', '6', '8', '6', '-', 'u', 'n', 'k', 'n', 'o', 'w', 'n', '-', 'h', 'a', 'i', 'k', 'u', ']', ' ', ' ', ' ', ' ', ' ', ' ', ' ', ' ', ' ', ' ', ' ', ' ', ' ', ' ', ' ', ' ', ' ', ' ', ' ', '|', ' ', 'x', '8', '6', ' ', ' ', ' ', ' ', ' ', ' ', ' ', ' ', ' ', '|', ' ', 'h', 'a', 'i', 'k', 'u', ' ', ' ', ' ', ' ', ' ', ' ', '|', ' ', ' ', ' ', ' ', ' ', ' ', ' ', ' ', ' ', ' ', ' ', ' ', '|'],
  ['|', ' ', '[', 'i', '6', '8', '6', '-', 'u', 'n', 'k', 'n', 'o', 'w', 'n', '-', 'h', 'e', 'l', 'e', 'n', 'o', 's', ']', ' ', ' ', ' ', ' ', ' ', ' ', ' ', ' ', ' ', ' ', ' ', ' ', ' ', ' ', ' ', ' ', ' ', '|', ' ', 'x', '8', '6', ' ', ' ', ' ', ' ', ' ', ' ', ' ', ' ', ' ', '|', ' ', 'h', 'e', 'l', 'e', 'n', 'o', 's', ' ', ' ', ' ', ' ', '|', ' ', ' ', ' ', ' ', ' ', ' ', ' ', ' ', ' ', ' ', ' ', ' ', '|'],
  ['|', ' ', '[', 'i', '6', '8', '6', '-', 'u', 'n', 'k', 'n', 'o', 'w', 'n', '-', 'h', 'u', 'r', 'd', '-', 'g', 'n', 'u', ']', ' ', ' ', ' ', ' ', ' ', ' ', ' ', ' ', ' ', ' ', ' ', ' ', ' ', ' ', ' ', ' ', '|', ' ', 'x', '8', '6', ' ', ' ', ' ', ' ', ' ', ' ', ' ', ' ', ' ', '|', ' ', 'h', 'u', 'r', 'd', ' ', ' ', ' ', ' ', ' ', ' ', ' ', '|', ' ', 'g', 'n', 'u', ' ', ' ', ' ', ' ', ' ', ' ', ' ', ' ', '|'],
  ['|', ' ', '[', 'i', '6', '8', '6', '-', 'u', 'n', 'k', 'n', 'o', 'w', 'n', '-', 'n', 'e', 't', 'b', 's', 'd', ']', ' ', ' ', ' ', ' ', ' ', ' ', ' ', ' ', ' ', ' ', ' ', ' ', ' ', ' ', ' ', ' ', ' ', ' ', '|', ' ', 'x', '8', '6', ' ', ' ', ' ', ' ', ' ', ' ', ' ', ' ', ' ', '|', ' ', 'n', 'e', 't', 'b', 's', 'd', ' ', ' ', ' ', ' ', ' ', '|', ' ', ' ', ' ', ' ', ' ', ' ', ' ', ' ', ' ', ' ', ' ', ' ', '|'],
  ['|', ' ', '[', 'i', '6', '8', '6', '-', 'u', 'n', 'k', 'n', 'o', 'w', 'n', '-', 'o', 'p', 'e', 'n', 'b', 's', 'd', ']', ' ', ' ', ' ', ' ', ' ', ' ', ' ', ' ', ' ', ' ', ' ', ' ', ' ', ' ', ' ', ' ', ' ', '|', ' ', 'x', '8', '6', ' ', ' ', ' ', ' ', ' ', ' ', ' ', ' ', ' ', '|', ' ', 'o', 'p', 'e', 'n', 'b', 's', 'd', ' ', ' ', ' ', ' ', '|', ' ', ' ', ' ', ' ', ' ', ' ', ' ', ' ', ' ', ' ', ' ', ' ', '|'],
  ['|', ' ', '[', 'i', '6', '8', '6', '-', 'u', 'w', 'p', '-', 'w', 'i', 'n', 'd', 'o', 'w', 's', '-', 'g', 'n', 'u', ']', ' ', ' ', ' ', ' ', ' ', ' ', ' ', ' ', ' ', ' ', ' ', ' ', ' ', ' ', ' ', ' ', ' ', '|', ' ', 'x', '8', '6', ' ', ' ', ' ', ' ', ' ', ' ', ' ', ' ', ' ', '|', ' ', 'w', 'i', 'n', 'd', 'o', 'w', 's', ' ', ' ', ' ', ' ', '|', ' ', 'g', 'n', 'u', ' ', ' ', ' ', ' ', ' ', ' ', ' ', ' ', '|'],
  ['|', ' ', '[', 'i', '6', '8', '6', '-', 'u', 'w', 'p', '-', 'w', 'i', 'n', 'd', 'o', 'w', 's', '-', 'm', 's', 'v', 'c', ']', ' ', ' ', ' ', ' ', ' ', ' ', ' ', ' ', ' ', ' ', ' ', ' ', ' ', ' ', ' ', ' ', '|', ' ', 'x', '8', '6', ' ', ' ', ' ', ' ', ' ', ' ', ' ', ' ', ' ', '|', ' ', 'w', 'i', 'n', 'd', 'o', 'w', 's', ' ', ' ', ' ', ' ', '|', ' ', 'm', 's', 'v', 'c', ' ', ' ', ' ', ' ', ' ', ' ', ' ', '|'],
  ['|', ' ', '[', 'i', '6', '8', '6', '-', 'w', 'i', 'n', '7', '-', 'w', 'i', 'n', 'd', 'o', 'w', 's', '-', 'g', 'n', 'u', ']', ' ', ' ', ' ', ' ', ' ', ' ', ' ', ' ', ' ', ' ', ' ', ' ', ' ', ' ', ' ', ' ', '|', ' ', 'x', '8', '6', ' ', ' ', ' ', ' ', ' ', ' ', ' ', ' ', ' ', '|', ' ', 'w', 'i', 'n', 'd', 'o', 'w', 's', ' ', ' ', ' ', ' ', '|', ' ', 'g', 'n', 'u', ' ', ' ', ' ', ' ', ' ', ' ', ' ', ' ', '|'],
  ['|', ' ', '[', 'i', '6', '8', '6', '-', 'w', 'i', 'n', '7', '-', 'w', 'i', 'n', 'd', 'o', 'w', 's', '-', 'm', 's', 'v', 'c', ']', ' ', ' ', ' ', ' ', ' ', ' ', ' ', ' ', ' ', ' ', ' ', ' ', ' ', ' ', ' ', '|', ' ', 'x', '8', '6', ' ', ' ', ' ', ' ', ' ', ' ', ' ', ' ', ' ', '|', ' ', 'w', 'i', 'n', 'd', 'o', 'w', 's', ' ', ' ', ' ', ' ', '|', ' ', 'm', 's', 'v', 'c', ' ', ' ', ' ', ' ', ' ', ' ', ' ', '|'],
  ['|', ' ', '[', 'i', '6', '8', '6', '-', 'w', 'r', 's', '-', 'v', 'x', 'w', 'o', 'r', 'k', 's', ']', ' ', ' ', ' ', ' ', ' ', ' ', ' ', ' ', ' ', ' ', ' ', ' ', ' ', ' ', ' ', ' ', ' ', ' ', ' ', ' ', ' ', '|', ' ', 'x', '8', '6', ' ', ' ', ' ', ' ', ' ', ' ', ' ', ' ', ' ', '|', ' ', 'v', 'x', 'w', 'o', 'r', 'k', 's', ' ', ' ', ' ', ' ', '|', ' ', 'g', 'n', 'u', ' ', ' ', ' ', ' ', ' ', ' ', ' ', ' ', '|'],
  ['|', ' ', '[', 'l', 'o', 'o', 'n', 'g', 'a', 'r', 'c', 'h', '6', '4', '-', 'u', 'n', 'k', 'n', 'o', 'w', 'n', '-', 'l', 'i', 'n', 'u', 'x', '-', 'o', 'h', 'o', 's', ']', ' ', ' ', ' ', ' ', ' ', ' ', ' ', '|', ' ', 'l', 'o', 'o', 'n', 'g', 'a', 'r', 'c', 'h', '6', '4', ' ', '|', ' ', 'l', 'i', 'n', 'u', 'x', ' ', ' ', ' ', ' ', ' ', ' ', '|', ' ', 'o', 'h', 'o', 's', ' ', ' ', ' ', ' ', ' ', ' ', ' ', '|'],
  ['|', ' ', '[', 'm', '6', '8', 'k', '-', 'u', 'n', 'k', 'n', 'o', 'w', 'n', '-', 'l', 'i', 'n', 'u', 'x', '-', 'g', 'n', 'u', ']', ' ', ' ', ' ', ' ', ' ', ' ', ' ', ' ', ' ', ' ', ' ', ' ', ' ', ' ', ' ', '|', ' ', 'm', '6', '8', 'k', ' ', ' ', ' ', ' ', ' ', ' ', ' ', ' ', '|', ' ', 'l', 'i', 'n', 'u', 'x', ' ', ' ', ' ', ' ', ' ', ' ', '|', ' ', 'g', 'n', 'u', ' ', ' ', ' ', ' ', ' ', ' ', ' ', ' ', '|'],
  ['|', ' ', '[', 'm', '6', '8', 'k', '-', 'u', 'n', 'k', 'n', 'o', 'w', 'n', '-', 'n', 'o', 'n', 'e', '-', 'e', 'l', 'f', ']', ' ', ' ', ' ', ' ', ' ', ' ', ' ', ' ', ' ', ' ', ' ', ' ', ' ', ' ', ' ', ' ', '|', ' ', 'm', '6', '8', 'k', ' ', ' ', ' ', ' ', ' ', ' ', ' ', ' ', '|', ' ', 'n', 'o', 'n', 'e', ' ', ' ', ' ', ' ', ' ', ' ', ' ', '|', ' ', ' ', ' ', ' ', ' ', ' ', ' ', ' ', ' ', ' ', ' ', ' ', '|'],
  ['|', ' ', '[', 'm', 'i', 'p', 's', '-', 'm', 't', 'i', '-', 'n', 'o', 'n', 'e', '-', 'e', 'l', 'f', ']', ' ', ' ', ' ', ' ', ' ', ' ', ' ', ' ', ' ', ' ', ' ', ' ', ' ', ' ', ' ', ' ', ' ', ' ', ' ', ' ', '|', ' ', 'm', 'i', 'p', 's', ' ', ' ', ' ', ' ', ' ', ' ', ' ', ' ', '|', ' ', 'n', 'o', 'n', 'e', ' ', ' ', ' ', ' ', ' ', ' ', ' ', '|', ' ', ' ', ' ', ' ', ' ', ' ', ' ', ' ', ' ', ' ', ' ', ' ', '|'],
  ['|', ' ', '[', 'm', 'i', 'p', 's', '-', 'u', 'n', 'k', 'n', 'o', 'w', 'n', '-', 'l', 'i', 'n', 'u', 'x', '-', 'g', 'n', 'u', ']', ' ', ' ', ' ', ' ', ' ', ' ', ' ', ' ', ' ', ' ', ' ', ' ', ' ', ' ', ' ', '|', ' ', 'm', 'i', 'p', 's', ' ', ' ', ' ', ' ', ' ', ' ', ' ', ' ', '|', ' ', 'l', 'i', 'n', 'u', 'x', ' ', ' ', ' ', ' ', ' ', ' ', '|', ' ', 'g', 'n', 'u', ' ', ' ', ' ', ' ', ' ', ' ', ' ', ' ', '|']]

/-- `platforms/README.md:288-312`. -/
def readme9 : List Str := [
  ['|', ' ', '[', 'm', 'i', 'p', 's', '-', 'u', 'n', 'k', 'n', 'o', 'w', 'n', '-', 'l', 'i', 'n', 'u', 'x', '-', 'm', 'u', 's', 'l', ']', ' ', ' ', ' ', ' ', ' ', ' ', ' ', ' ', ' ', ' ', ' ', ' ', ' ', ' ', '|', ' ', 'm', 'i', 'p', 's', ' ', ' ', ' ', ' ', ' ', ' ', ' ', ' ', '|', ' ', 'l', 'i', 'n', 'u', 'x', ' ', ' ', ' ', ' ', ' ', ' ', '|', ' ', 'm', 'u', 's', 'l', ' ', ' ', ' ', ' ', ' ', ' ', ' ', '|'],
  ['|', ' ', '[', 'm', 'i', 'p', 's', '-', 'u', 'n', 'k', 'n', 'o', 'w', 'n', '-', 'l', 'i', 'n', 'u', 'x', '-', 'u', 'c', 'l', 'i', 'b', 'c', ']', ' ', ' ', ' ', ' ', ' ', ' ', ' ', ' ', ' ', ' ', ' ', ' ', '|', ' ', 'm', 'i', 'p', 's', ' ', ' ', ' ', ' ', ' ', ' ', ' ', ' ', '|', ' ', 'l', 'i', 'n', 'u', 'x', ' ', ' ', ' ', ' ', ' ', ' ', '|', ' ', 'u', 'c', 'l', 'i', 'b', 'c', ' ', ' ', ' ', ' ', ' ', '|'],
  ['|', ' ', '[', 'm', 'i', 'p', 's', '6', '4', '-', 'o', 'p', 'e', 'n', 'w', 'r', 't', '-', 'l', 'i', 'n', 'u', 'x', '-', 'm', 'u', 's', 'l', ']', ' ', ' ', ' ', ' ', ' ', ' ', ' ', ' ', ' ', ' ', ' ', ' ', '|', ' ', 'm', 'i', 'p', 's', '6', '4', ' ', ' ', ' ', ' ', ' ', ' ', '|', ' ', 'l', 'i', 'n', 'u', 'x', ' ', ' ', ' ', ' ', ' ', ' ', '|', ' ', 'm', 'u', 's', 'l', ' ', ' ', ' ', ' ', ' ', ' ', ' ', '|'],
  ['|', ' ', '[', 'm', 'i', 'p', 's', '6', '4', '-', 'u', 'n', 'k', 'n', 'o', 'w', 'n', '-', 'l', 'i', 'n', 'u', 'x', '-', 'g', 'n', 'u', 'a', 'b', 'i', '6', '4', ']', ' ', ' ', ' ', ' ', ' ', ' ', ' ', ' ', '|', ' ', 'm', 'i', 'p', 's', '6', '4', ' ', ' ', ' ', ' ', ' ', ' ', '|', ' ', 'l', 'i', 'n', 'u', 'x', ' ', ' ', ' ', ' ', ' ', ' ', '|', ' ', 'g', 'n', 'u', ' ', ' ', ' ', ' ', ' ', ' ', ' ', ' ', '|'],
  ['|', ' ', '[', 'm', 'i', 'p', 's', '6', '4', '-', 'u', 'n', 'k', 'n', 'o', 'w', 'n', '-', 'l', 'i', 'n', 'u', 'x', '-', 'm', 'u', 's', 'l', 'a', 'b', 'i', '6', '4', ']', ' ', ' ', ' ', ' ', ' ', ' ', ' ', '|', ' ', 'm', 'i', 'p', 's', '6', '4', ' ', ' ', ' ', ' ', ' ', ' ', '|', ' ', 'l', 'i', 'n', 'u', 'x', ' ', ' ', ' ', ' ', ' ', ' ', '|', ' ', 'm', 'u', 's', 'l', ' ', ' ', ' ', ' ', ' ', ' ', ' ', '|'],
  ['|', ' ', '[', 'm', 'i', 'p', 's', '6', '4', 'e', 'l', '-', 'u', 'n', 'k', 'n', 'o', 'w', 'n', '-', 'l', 'i', 'n', 'u', 'x', '-', 'g', 'n', 'u', 'a', 'b', 'i', '6', '4', ']', ' ', ' ', ' ', ' ', ' ', ' ', '|', ' ', 'm', 'i', 'p', 's', '6', '4', ' ', ' ', ' ', ' ', ' ', ' ', '|', ' ', 'l', 'i', 'n', 'u', 'x', ' ', ' ', ' ', ' ', ' ', ' ', '|', ' ', 'g', 'n', 'u', ' ', ' ', ' ', ' ', ' ', ' ', ' ', ' ', '|'],
  ['|', ' ', '[', 'm', 'i', 'p', 's', '6', '4', 'e', 'l', '-', 'u', 'n', 'k', 'n', 'o', 'w', 'n', '-', 'l', 'i', 'n', 'u', 'x', '-', 'm', 'u', 's', 'l', 'a', 'b', 'i', '6', '4', ']', ' ', ' ', ' ', ' ', ' ', '|', ' ', 'm', 'i', 'p', 's', '6', '4', ' ', ' ', ' ', ' ', ' ', ' ', '|', ' ', 'l', 'i', 'n', 'u', 'x', ' ', ' ', ' ', ' ', ' ', ' ', '|', ' ', 'm', 'u', 's', 'l', ' ', ' ', ' ', ' ', ' ', ' ', ' ', '|'],
  ['|', ' ', '[', 'm', 'i', 'p', 's', 'e', 'l', '-', 'm', 't', 'i', '-', 'n', 'o', 'n', 'e', '-', 'e', 'l', 'f', ']', ' ', ' ', ' ', ' ', ' ', ' ', ' ', ' ', ' ', ' ', ' ', ' ', ' ', ' ', ' ', ' ', ' ', ' ', '|', ' ', 'm', 'i', 'p', 's', ' ', ' ', ' ', ' ', ' ', ' ', ' ', ' ', '|', ' ', 'n', 'o', 'n', 'e', ' ', ' ', ' ', ' ', ' ', ' ', ' ', '|', ' ', ' ', ' ', ' ', ' ', ' ', ' ', ' ', ' ', ' ', ' ', ' ', '|'],
  ['|', ' ', '[', 'm', 'i', 'p', 's', 'e', 'l', '-', 's', 'o', 'n', 'y', '-', 'p', 's', 'p', ']', ' ', ' ', ' ', ' ', ' ', ' ', ' ', ' ', ' ', ' ', ' ', ' ', ' ', ' ', ' ', ' ', ' ', ' ', ' ', ' ', ' ', ' ', '|', ' ', 'm', 'i', 'p', 's', ' ', ' ', ' ', ' ', ' ', ' ', ' ', ' ', '|', ' ', 'p', 's', 'p', ' ', ' ', ' ', ' ', ' ', ' ', ' ', ' ', '|', ' ', ' ', ' ', ' ', ' ', ' ', ' ', ' ', ' ', ' ', ' ', ' ', '|'],
  ['|', ' ', '[', 'm', 'i', 'p', 's', 'e', 'l', '-', 's', 'o', 'n', 'y', '-', 'p', 's', 'x', ']', ' ', ' ', ' ', ' ', ' ', ' ', ' ', ' ', ' ', ' ', ' ', ' ', ' ', ' ', ' ', ' ', ' ', ' ', ' ', ' ', ' ', ' ', '|', ' ', 'm', 'i', 'p', 's', ' ', ' ', ' ', ' ', ' ', ' ', ' ', ' ', '|', ' ', 'p', 's', 'x', ' ', ' ', ' ', ' ', ' ', ' ', ' ', ' ', '|', ' ', ' ', ' ', ' ', ' ', ' ', ' ', ' ', ' ', ' ', ' ', ' ', '|'],
  ['|', ' ', '[', 'm', 'i', 'p', 's', 'e', 'l', '-', 'u', 'n', 'k', 'n', 'o', 'w', 'n', '-', 'l', 'i', 'n', 'u', 'x', '-', 'g', 'n', 'u', ']', ' ', ' ', ' ', ' ', ' ', ' ', ' ', ' ', ' ', ' ', ' ', ' ', ' ', '|', ' ', 'm', 'i', 'p', 's', ' ', ' ', ' ', ' ', ' ', ' ', ' ', ' ', '|', ' ', 'l', 'i', 'n', 'u', 'x', ' ', ' ', ' ', ' ', ' ', ' ', '|', ' ', 'g', 'n', 'u', ' ', ' ', ' ', ' ', ' ', ' ', ' ', ' ', '|'],
  ['|', ' ', '[', 'm', 'i', 'p', 's', 'e', 'l', '-', 'u', 'n', 'k', 'n', 'o', 'w', 'n', '-', 'l', 'i', 'n', 'u', 'x', '-', 'm', 'u', 's', 'l', ']', ' ', ' ', ' ', ' ', ' ', ' ', ' ', ' ', ' ', ' ', ' ', ' ', '|', ' ', 'm', 'i', 'p', 's', ' ', ' ', ' ', ' ', ' ', ' ', ' ', ' ', '|', ' ', 'l', 'i', 'n', 'u', 'x', ' ', ' ', ' ', ' ', ' ', ' ', '|', ' ', 'm', 'u', 's', 'l', ' ', ' ', ' ', ' ', ' ', ' ', ' ', '|'],
  ['|', ' ', '[', 'm', 'i', 'p', 's', 'e', 'l', '-', 'u', 'n', 'k', 'n', 'o', 'w', 'n', '-', 'l', 'i', 'n', 'u', 'x', '-', 'u', 'c', 'l', 'i', 'b', 'c', ']', ' ', ' ', ' ', ' ', ' ', ' ', ' ', ' ', ' ', ' ', '|', ' ', 'm', 'i', 'p', 's', ' ', ' ', ' ', ' ', ' ', ' ', ' ', ' ', '|', ' ', 'l', 'i', 'n', 'u', 'x', ' ', ' ', ' ', ' ', ' ', ' ', '|', ' ', 'u', 'c', 'l', 'i', 'b', 'c', ' ', ' ', ' ', ' ', ' ', '|'],
  ['|', ' ', '[', 'm', 'i', 'p', 's', 'e', 'l', '-', 'u', 'n', 'k', 'n', 'o', 'w', 'n', '-', 'n', 'e', 't', 'b', 's', 'd', ']', ' ', ' ', ' ', ' ', ' ', ' ', ' ', ' ', ' ', ' ', ' ', ' ', ' ', ' ', ' ', ' ', '|', ' ', 'm', 'i', 'p', 's', ' ', ' ', ' ', ' ', ' ', ' ', ' ', ' ', '|', ' ', 'n', 'e', 't', 'b', 's', 'd', ' ', ' ', ' ', ' ', ' ', '|', ' ', ' ', ' ', ' ', ' ', ' ', ' ', ' ', ' ', ' ', ' ', ' ', '|'],
  ['|', ' ', '[', 'm', 'i', 'p', 's', 'e', 'l', '-', 'u', 'n', 'k', 'n', 'o', 'w', 'n', '-', 'n', 'o', 'n', 'e', ']', ' ', ' ', ' ', ' ', ' ', ' ', ' ', ' ', ' ', ' ', ' ', ' ', ' ', ' ', ' ', ' ', ' ', ' ', '|', ' ', 'm', 'i', 'p', 's', ' ', ' ', ' ', ' ', ' ', ' ', ' ', ' ', '|', ' ', 'n', 'o', 'n', 'e', ' ', ' ', ' ', ' ', ' ', ' ', ' ', '|', ' ', ' ', ' ', ' ', ' ', ' ', ' ', ' ', ' ', ' ', ' ', ' ', '|'],
  ['|', ' ', '[', 'm', 'i', 'p', 's', 'i', 's', 'a', '3', '2', 'r', '6', '-', 'u', 'n', 'k', 'n', 'o', 'w', 'n', '-', 'l', 'i', 'n', 'u', 'x', '-', 'g', 'n', 'u', ']', ' ', ' ', ' ', ' ', ' ', ' ', ' ', ' ', '|', ' ', 'm', 'i', 'p', 's', '3', '2', 'r', '6', ' ', ' ', ' ', ' ', '|', ' ', 'l', 'i', 'n', 'u', 'x', ' ', ' ', ' ', ' ', ' ', ' ', '|', ' ', 'g', 'n', 'u', ' ', ' ', ' ', ' ', ' ', ' ', ' ', ' ', '|'],
  ['|', ' ', '[', 'm', 'i', 'p', 's', 'i', 's', 'a', '3', '2', 'r', '6', 'e', 'l', '-', 'u', 'n', 'k', 'n', 'o', 'w', 'n', '-', 'l', 'i', 'n', 'u', 'x', '-', 'g', 'n', 'u', ']', ' ', ' ', ' ', ' ', ' ', ' ', '|', ' ', 'm', 'i', 'p', 's', '3', '2', 'r', '6', ' ', ' ', ' ', ' ', '|', ' ', 'l', 'i', 'n', 'u', 'x', ' ', ' ', ' ', ' ', ' ', ' ', '|', ' ', 'g', 'n', 'u', ' ', ' ', ' ', ' ', ' ', ' ', ' ', ' ', '|'],
  ['|', ' ', '[', 'm', 'i', 'p', 's', 'i', 's', 'a', '6', '4', 'r', '6', '-', 'u', 'n', 'k', 'n', 'o', 'w', 'n', '-', 'l', 'i', 'n', 'u', 'x', '-', 'g', 'n', 'u', 'a', 'b', 'i', '6', '4', ']', ' ', ' ', ' ', '|', ' ', 'm', 'i', 'p', 's', '6', '4', 'r', '6', ' ', ' ', ' ', ' ', '|', ' ', 'l', 'i', 'n', 'u', 'x', ' ', ' ', ' ', ' ', ' ', ' ', '|', ' ', 'g', 'n', 'u', ' ', ' ', ' ', ' ', ' ', ' ', ' ', ' ', '|'],
  ['|', ' ', '[', 'm', 'i', 'p', 's', 'i', 's', 'a', '6', '4', 'r', '6', 'e', 'l', '-', 'u', 'n', 'k', 'n', 'o', 'w', 'n', '-', 'l', 'i', 'n', 'u', 'x', '-', 'g', 'n', 'u', 'a', 'b', 'i', '6', '4', ']', ' ', '|', ' ', 'm', 'i', 'p', 's', '6', '4', 'r', '6', ' ', ' ', ' ', ' ', '|', ' ', 'l', 'i', 'n', 'u', 'x', ' ', ' ', ' ', ' ', ' ', ' ', '|', ' ', 'g', 'n', 'u', ' ', ' ', ' ', ' ', ' ', ' ', ' ', ' ', '|'],
  ['|', ' ', '[', 'm', 's', 'p', '4', '3', '0', '-', 'n', 'o', 'n', 'e', '-', 'e', 'l', 'f', ']', ' ', ' ', ' ', ' ', ' ', ' ', ' ', ' ', ' ', ' ', ' ', ' ', ' ', ' ', ' ', ' ', ' ', ' ', ' ', ' ', ' ', ' ', '|', ' ', 'm', 's', 'p', '4', '3', '0', ' ', ' ', ' ', ' ', ' ', ' ', '|', ' ', 'n', 'o', 'n', 'e', ' ', ' ', ' ', ' ', ' ', ' ', ' ', '|', ' ', ' ', ' ', ' ', ' ', ' ', ' ', ' ', ' ', ' ', ' ', ' ', '|'],
  ['|', ' ', '[', 'p', 'o', 'w', 'e', 'r', 'p', 'c', '-', 'u', 'n', 'k', 'n', 'o', 'w', 'n', '-', 'f', 'r', 'e', 'e', 'b', 's', 'd', ']', ' ', ' ', ' ', ' ', ' ', ' ', ' ', ' ', ' ', ' ', ' ', ' ', ' ', ' ', '|', ' ', 'p', 'o', 'w', 'e', 'r', 'p', 'c', ' ', ' ', ' ', ' ', ' ', '|', ' ', 'f', 'r', 'e', 'e', 'b', 's', 'd', ' ', ' ', ' ', ' ', '|', ' ', ' ', ' ', ' ', ' ', ' ', ' ', ' ', ' ', ' ', ' ', ' ', '|'],
  ['|', ' ', '[', 'p', 'o', 'w', 'e', 'r', 'p', 'c', '-', 'u', 'n', 'k', 'n', 'o', 'w', 'n', '-', 'h', 'e', 'l', 'e', 'n', 'o', 's', ']', ' ', ' ', ' ', ' ', ' ', ' ', ' ', ' ', ' ', ' ', ' ', ' ', ' ', ' ', '|', ' ', 'p', 'o', 'w', 'e', 'r', 'p', 'c', ' ', ' ', ' ', ' ', ' ', '|', ' ', 'h', 'e', 'l', 'e', 'n', 'o', 's', ' ', ' ', ' ', ' ', '|', ' ', ' ', ' ', ' ', ' ', ' ', ' ', ' ', ' ', ' ', ' ', ' ', '|'],
  ['|', ' ', '[', 'p', 'o', 'w', 'e', 'r', 'p', 'c', '-', 'u', 'n', 'k', 'n', 'o', 'w', 'n', '-', 'l', 'i', 'n', 'u', 'x', '-', 'g', 'n', 'u', 's', 'p', 'e', ']', ' ', ' ', ' ', ' ', ' ', ' ', ' ', ' ', ' ', '|', ' ', 'p', 'o', 'w', 'e', 'r', 'p', 'c', ' ', ' ', ' ', ' ', ' ', '|', ' ', 'l', 'i', 'n', 'u', 'x', ' ', ' ', ' ', ' ', ' ', ' ', '|', ' ', 'g', 'n', 'u', ' ', ' ', ' ', ' ', ' ', ' ', ' ', ' ', '|'],
  ['|', ' ', '[', 'p', 'o', 'w', 'e', 'r', 'p', 'c', '-', 'u', 'n', 'k', 'n', 'o', 'w', 'n', '-', 'l', 'i', 'n', 'u', 'x', '-', 'm', 'u', 's', 'l', ']', ' ', ' ', ' ', ' ', ' ', ' ', ' ', ' ', ' ', ' ', ' ', '|', ' ', 'p', 'o', 'w', 'e', 'r', 'p', 'c', ' ', ' ', ' ', ' ', ' ', '|', ' ', 'l', 'i', 'n', 'u', 'x', ' ', ' ', ' ', ' ', ' ', ' ', '|', ' ', 'm', 'u', 's', 'l', ' ', ' ', ' ', ' ', ' ', ' ', ' ', '|'],
  ['|', ' ', '[', 'p', 'o', 'w', 'e', 'r', 'p', 'c', '-', 'u', 'n', 'k', 'n', 'o', 'w', 'n', '-', 'l', 'i', 'n', 'u', 'x', '-', 'm', 'u', 's', 'l', 's', 'p', 'e', ']', ' ', ' ', ' ', ' ', ' ', ' ', ' ', ' ', '|', ' ', 'p', 'o', 'w', 'e', 'r', 'p', 'c', ' ', ' ', ' ', ' ', ' ', '|', ' ', 'l', 'i', 'n', 'u', 'x', ' ', ' ', ' ', ' ', ' ', ' ', '|', ' ', 'm', 'u', 's', 'l', ' ', ' ', ' ', ' ', ' ', ' ', ' ', '|']]

/-- `platforms/README.md:313-337`. -/
def readme10 : List Str := [
  ['|', ' ', '[', 'p', 'o', 'w', 'e', 'r', 'p', 'c', '-', 'u', 'n', 'k', 'n', 'o', 'w', 'n', '-', 'n', 'e', 't', 'b', 's', 'd', ']', ' ', ' ', ' ', ' ', ' ', ' ', ' ', ' ', ' ', ' ', ' ', ' ', ' ', ' ', ' ', '|', ' ', 'p', 'o', 'w', 'e', 'r', 'p', 'c', ' ', ' ', ' ', ' ', ' ', '|', ' ', 'n', 'e', 't', 'b', 's', 'd', ' ', ' ', ' ', ' ', ' ', '|', ' ', ' ', ' ', ' ', ' ', ' ', ' ', ' ', ' ', ' ', ' ', ' ', '|'],
  ['|', ' ', '[', 'p', 'o', 'w', 'e', 'r', 'p', 'c', '-', 'u', 'n', 'k', 'n', 'o', 'w', 'n', '-', 'o', 'p', 'e', 'n', 'b', 's', 'd', ']', ' ', ' ', ' ', ' ', ' ', ' ', ' ', ' ', ' ', ' ', ' ', ' ', ' ', ' ', '|', ' ', 'p', 'o', 'w', 'e', 'r', 'p', 'c', ' ', ' ', ' ', ' ', ' ', '|', ' ', 'o', 'p', 'e', 'n', 'b', 's', 'd', ' ', ' ', ' ', ' ', '|', ' ', ' ', ' ', ' ', ' ', ' ', ' ', ' ', ' ', ' ', ' ', ' ', '|'],
  ['|', ' ', '[', 'p', 'o', 'w', 'e', 'r', 'p', 'c', '-', 'w', 'r', 's', '-', 'v', 'x', 'w', 'o', 'r', 'k', 's', ']', ' ', ' ', ' ', ' ', ' ', ' ', ' ', ' ', ' ', ' ', ' ', ' ', ' ', ' ', ' ', ' ', ' ', ' ', '|', ' ', 'p', 'o', 'w', 'e', 'r', 'p', 'c', ' ', ' ', ' ', ' ', ' ', '|', ' ', 'v', 'x', 'w', 'o', 'r', 'k', 's', ' ', ' ', ' ', ' ', '|', ' ', 'g', 'n', 'u', ' ', ' ', ' ', ' ', ' ', ' ', ' ', ' ', '|'],
  ['|', ' ', '[', 'p', 'o', 'w', 'e', 'r', 'p', 'c', '-', 'w', 'r', 's', '-', 'v', 'x', 'w', 'o', 'r', 'k', 's', '-', 's', 'p', 'e', ']', ' ', ' ', ' ', ' ', ' ', ' ', ' ', ' ', ' ', ' ', ' ', ' ', ' ', ' ', '|', ' ', 'p', 'o', 'w', 'e', 'r', 'p', 'c', ' ', ' ', ' ', ' ', ' ', '|', ' ', 'v', 'x', 'w', 'o', 'r', 'k', 's', ' ', ' ', ' ', ' ', '|', ' ', 'g', 'n', 'u', ' ', ' ', ' ', ' ', ' ', ' ', ' ', ' ', '|'],
  ['|', ' ', '[', 'p', 'o', 'w', 'e', 'r', 'p', 'c', '6', '4', '-', 'i', 'b', 'm', '-', 'a', 'i', 'x', ']', ' ', ' ', ' ', ' ', ' ', ' ', ' ', ' ', ' ', ' ', ' ', ' ', ' ', ' ', ' ', ' ', ' ', ' ', ' ', ' ', '|', ' ', 'p', 'o', 'w', 'e', 'r', 'p', 'c', '6', '4', ' ', ' ', ' ', '|', ' ', 'a', 'i', 'x', ' ', ' ', ' ', ' ', ' ', ' ', ' ', ' ', '|', ' ', ' ', ' ', ' ', ' ', ' ', ' ', ' ', ' ', ' ', ' ', ' ', '|'],
  ['|', ' ', '[', 'p', 'o', 'w', 'e', 'r', 'p', 'c', '6', '4', '-', 'u', 'n', 'k', 'n', 'o', 'w', 'n', '-', 'f', 'r', 'e', 'e', 'b', 's', 'd', ']', ' ', ' ', ' ', ' ', ' ', ' ', ' ', ' ', ' ', ' ', ' ', ' ', '|', ' ', 'p', 'o', 'w', 'e', 'r', 'p', 'c', '6', '4', ' ', ' ', ' ', '|', ' ', 'f', 'r', 'e', 'e', 'b', 's', 'd', ' ', ' ', ' ', ' ', '|', ' ', ' ', ' ', ' ', ' ', ' ', ' ', ' ', ' ', ' ', ' ', ' ', '|'],
  ['|', ' ', '[', 'p', 'o', 'w', 'e', 'r', 'p', 'c', '6', '4', '-', 'u', 'n', 'k', 'n', 'o', 'w', 'n', '-', 'l', 'i', 'n', 'u', 'x', '-', 'g', 'n', 'u', 'e', 'l', 'f', 'v', '2', ']', ' ', ' ', ' ', ' ', ' ', '|', ' ', 'p', 'o', 'w', 'e', 'r', 'p', 'c', '6', '4', ' ', ' ', ' ', '|', ' ', 'l', 'i', 'n', 'u', 'x', ' ', ' ', ' ', ' ', ' ', ' ', '|', ' ', 'g', 'n', 'u', ' ', ' ', ' ', ' ', ' ', ' ', ' ', ' ', '|'],
  ['|', ' ', '[', 'p', 'o', 'w', 'e', 'r', 'p', 'c', '6', '4', '-', 'u', 'n', 'k', 'n', 'o', 'w', 'n', '-', 'o', 'p', 'e', 'n', 'b', 's', 'd', ']', ' ', ' ', ' ', ' ', ' ', ' ', ' ', ' ', ' ', ' ', ' ', ' ', '|', ' ', 'p', 'o', 'w', 'e', 'r', 'p', 'c', '6', '4', ' ', ' ', ' ', '|', ' ', 'o', 'p', 'e', 'n', 'b', 's', 'd', ' ', ' ', ' ', ' ', '|', ' ', ' ', ' ', ' ', ' ', ' ', ' ', ' ', ' ', ' ', ' ', ' ', '|'],
  ['|', ' ', '[', 'p', 'o', 'w', 'e', 'r', 'p', 'c', '6', '4', '-', 'w', 'r', 's', '-', 'v', 'x', 'w', 'o', 'r', 'k', 's', ']', ' ', ' ', ' ', ' ', ' ', ' ', ' ', ' ', ' ', ' ', ' ', ' ', ' ', ' ', ' ', ' ', '|', ' ', 'p', 'o', 'w', 'e', 'r', 'p', 'c', '6', '4', ' ', ' ', ' ', '|', ' ', 'v', 'x', 'w', 'o', 'r', 'k', 's', ' ', ' ', ' ', ' ', '|', ' ', 'g', 'n', 'u', ' ', ' ', ' ', ' ', ' ', ' ', ' ', ' ', '|'],
  ['|', ' ', '[', 'p', 'o', 'w', 'e', 'r', 'p', 'c', '6', '4', 'l', 'e', '-', 'u', 'n', 'k', 'n', 'o', 'w', 'n', '-', 'f', 'r', 'e', 'e', 'b', 's', 'd', ']', ' ', ' ', ' ', ' ', ' ', ' ', ' ', ' ', ' ', ' ', '|', ' ', 'p', 'o', 'w', 'e', 'r', 'p', 'c', '6', '4', ' ', ' ', ' ', '|', ' ', 'f', 'r', 'e', 'e', 'b', 's', 'd', ' ', ' ', ' ', ' ', '|', ' ', ' ', ' ', ' ', ' ', ' ', ' ', ' ', ' ', ' ', ' ', ' ', '|'],
  ['|', ' ', '[', 'r', 'i', 's', 'c', 'v', '3', '2', '-', 'w', 'r', 's', '-', 'v', 'x', 'w', 'o', 'r', 'k', 's', ']', ' ', ' ', ' ', ' ', ' ', ' ', ' ', ' ', ' ', ' ', ' ', ' ', ' ', ' ', ' ', ' ', ' ', ' ', '|', ' ', 'r', 'i', 's', 'c', 'v', '3', '2', ' ', ' ', ' ', ' ', ' ', '|', ' ', 'v', 'x', 'w', 'o', 'r', 'k', 's', ' ', ' ', ' ', ' ', '|', ' ', 'g', 'n', 'u', ' ', ' ', ' ', ' ', ' ', ' ', ' ', ' ', '|'],
  ['|', ' ', '[', 'r', 'i', 's', 'c', 'v', '3', '2', 'e', '-', 'u', 'n', 'k', 'n', 'o', 'w', 'n', '-', 'n', 'o', 'n', 'e', '-', 'e', 'l', 'f', ']', ' ', ' ', ' ', ' ', ' ', ' ', ' ', ' ', ' ', ' ', ' ', ' ', '|', ' ', 'r', 'i', 's', 'c', 'v', '3', '2', ' ', ' ', ' ', ' ', ' ', '|', ' ', 'n', 'o', 'n', 'e', ' ', ' ', ' ', ' ', ' ', ' ', ' ', '|', ' ', ' ', ' ', ' ', ' ', ' ', ' ', ' ', ' ', ' ', ' ', ' ', '|'],
  ['|', ' ', '[', 'r', 'i', 's', 'c', 'v', '3', '2', 'e', 'm', '-', 'u', 'n', 'k', 'n', 'o', 'w', 'n', '-', 'n', 'o', 'n', 'e', '-', 'e', 'l', 'f', ']', ' ', ' ', ' ', ' ', ' ', ' ', ' ', ' ', ' ', ' ', ' ', '|', ' ', 'r', 'i', 's', 'c', 'v', '3', '2', ' ', ' ', ' ', ' ', ' ', '|', ' ', 'n', 'o', 'n', 'e', ' ', ' ', ' ', ' ', ' ', ' ', ' ', '|', ' ', ' ', ' ', ' ', ' ', ' ', ' ', ' ', ' ', ' ', ' ', ' ', '|'],
  ['|', ' ', '[', 'r', 'i', 's', 'c', 'v', '3', '2', 'e', 'm', 'c', '-', 'u', 'n', 'k', 'n', 'o', 'w', 'n', '-', 'n', 'o', 'n', 'e', '-', 'e', 'l', 'f', ']', ' ', ' ', ' ', ' ', ' ', ' ', ' ', ' ', ' ', ' ', '|', ' ', 'r', 'i', 's', 'c', 'v', '3', '2', ' ', ' ', ' ', ' ', ' ', '|', ' ', 'n', 'o', 'n', 'e', ' ', ' ', ' ', ' ', ' ', ' ', ' ', '|', ' ', ' ', ' ', ' ', ' ', ' ', ' ', ' ', ' ', ' ', ' ', ' ', '|'],
  ['|', ' ', '[', 'r', 'i', 's', 'c', 'v', '3', '2', 'g', 'c', '-', 'u', 'n', 'k', 'n', 'o', 'w', 'n', '-', 'l', 'i', 'n', 'u', 'x', '-', 'g', 'n', 'u', ']', ' ', ' ', ' ', ' ', ' ', ' ', ' ', ' ', ' ', ' ', '|', ' ', 'r', 'i', 's', 'c', 'v', '3', '2', ' ', ' ', ' ', ' ', ' ', '|', ' ', 'l', 'i', 'n', 'u', 'x', ' ', ' ', ' ', ' ', ' ', ' ', '|', ' ', 'g', 'n', 'u', ' ', ' ', ' ', ' ', ' ', ' ', ' ', ' ', '|'],
  ['|', ' ', '[', 'r', 'i', 's', 'c', 'v', '3', '2', 'g', 'c', '-', 'u', 'n', 'k', 'n', 'o', 'w', 'n', '-', 'l', 'i', 'n', 'u', 'x', '-', 'm', 'u', 's', 'l', ']', ' ', ' ', ' ', ' ', ' ', ' ', ' ', ' ', ' ', '|', ' ', 'r', 'i', 's', 'c', 'v', '3', '2', ' ', ' ', ' ', ' ', ' ', '|', ' ', 'l', 'i', 'n', 'u', 'x', ' ', ' ', ' ', ' ', ' ', ' ', '|', ' ', 'm', 'u', 's', 'l', ' ', ' ', ' ', ' ', ' ', ' ', ' ', '|'],
  ['|', ' ', '[', 'r', 'i', 's', 'c', 'v', '3', '2', 'i', 'm', '-', 'r', 'i', 's', 'c', '0', '-', 'z', 'k', 'v', 'm', '-', 'e', 'l', 'f', ']', ' ', ' ', ' ', ' ', ' ', ' ', ' ', ' ', ' ', ' ', ' ', ' ', ' ', '|', ' ', 'r', 'i', 's', 'c', 'v', '3', '2', ' ', ' ', ' ', ' ', ' ', '|', ' ', 'z', 'k', 'v', 'm', ' ', ' ', ' ', ' ', ' ', ' ', ' ', '|', ' ', ' ', ' ', ' ', ' ', ' ', ' ', ' ', ' ', ' ', ' ', ' ', '|'],
  ['|', ' ', '[', 'r', 'i', 's', 'c', 'v', '3', '2', 'i', 'm', 'a', '-', 'u', 'n', 'k', 'n', 'o', 'w', 'n', '-', 'n', 'o', 'n', 'e', '-', 'e', 'l', 'f', ']', ' ', ' ', ' ', ' ', ' ', ' ', ' ', ' ', ' ', ' ', '|', ' ', 'r', 'i', 's', 'c', 'v', '3', '2', ' ', ' ', ' ', ' ', ' ', '|', ' ', 'n', 'o', 'n', 'e', ' ', ' ', ' ', ' ', ' ', ' ', ' ', '|', ' ', ' ', ' ', ' ', ' ', ' ', ' ', ' ', ' ', ' ', ' ', ' ', '|'],
  ['|', ' ', '[', 'r', 'i', 's', 'c', 'v', '3', '2', 'i', 'm', 'a', 'c', '-', 'e', 's', 'p', '-', 'e', 's', 'p', 'i', 'd', 'f', ']', ' ', ' ', ' ', ' ', ' ', ' ', ' ', ' ', ' ', ' ', ' ', ' ', ' ', ' ', ' ', '|', ' ', 'r', 'i', 's', 'c', 'v', '3', '2', ' ', ' ', ' ', ' ', ' ', '|', ' ', 'e', 's', 'p', 'i', 'd', 'f', ' ', ' ', ' ', ' ', ' ', '|', ' ', 'n', 'e', 'w', 'l', 'i', 'b', ' ', ' ', ' ', ' ', ' ', '|'],
  ['|', ' ', '[', 'r', 'i', 's', 'c', 'v', '3', '2', 'i', 'm', 'a', 'c', '-', 'u', 'n', 'k', 'n', 'o', 'w', 'n', '-', 'n', 'u', 't', 't', 'x', '-', 'e', 'l', 'f', ']', ' ', ' ', ' ', ' ', ' ', ' ', ' ', ' ', '|', ' ', 'r', 'i', 's', 'c', 'v', '3', '2', ' ', ' ', ' ', ' ', ' ', '|', ' ', 'n', 'u', 't', 't', 'x', ' ', ' ', ' ', ' ', ' ', ' ', '|', ' ', ' ', ' ', ' ', ' ', ' ', ' ', ' ', ' ', ' ', ' ', ' ', '|'],
  ['|', ' ', '[', 'r', 'i', 's', 'c', 'v', '3', '2', 'i', 'm', 'a', 'c', '-', 'u', 'n', 'k', 'n', 'o', 'w', 'n', '-', 'x', 'o', 'u', 's', '-', 'e', 'l', 'f', ']', ' ', ' ', ' ', ' ', ' ', ' ', ' ', ' ', ' ', '|', ' ', 'r', 'i', 's', 'c', 'v', '3', '2', ' ', ' ', ' ', ' ', ' ', '|', ' ', 'x', 'o', 'u', 's', ' ', ' ', ' ', ' ', ' ', ' ', ' ', '|', ' ', ' ', ' ', ' ', ' ', ' ', ' ', ' ', ' ', ' ', ' ', ' ', '|'],
  ['|', ' ', '[', 'r', 'i', 's', 'c', 'v', '3', '2', 'i', 'm', 'a', 'f', 'c', '-', 'e', 's', 'p', '-', 'e', 's', 'p', 'i', 'd', 'f', ']', ' ', ' ', ' ', ' ', ' ', ' ', ' ', ' ', ' ', ' ', ' ', ' ', ' ', ' ', '|', ' ', 'r', 'i', 's', 'c', 'v', '3', '2', ' ', ' ', ' ', ' ', ' ', '|', ' ', 'e', 's', 'p', 'i', 'd', 'f', ' ', ' ', ' ', ' ', ' ', '|', ' ', 'n', 'e', 'w', 'l', 'i', 'b', ' ', ' ', ' ', ' ', ' ', '|'],
  ['|', ' ', '[', 'r', 'i', 's', 'c', 'v', '3', '2', 'i', 'm', 'a', 'f', 'c', '-', 'u', 'n', 'k', 'n', 'o', 'w', 'n', '-', 'n', 'u', 't', 't', 'x', '-', 'e', 'l', 'f', ']', ' ', ' ', ' ', ' ', ' ', ' ', ' ', '|', ' ', 'r', 'i', 's', 'c', 'v', '3', '2', ' ', ' ', ' ', ' ', ' ', '|', ' ', 'n', 'u', 't', 't', 'x', ' ', ' ', ' ', ' ', ' ', ' ', '|', ' ', ' ', ' ', ' ', ' ', ' ', ' ', ' ', ' ', ' ', ' ', ' ', '|'],
  ['|', ' ', '[', 'r', 'i', 's', 'c', 'v', '3', '2', 'i', 'm', 'c', '-', 'e', 's', 'p', '-', 'e', 's', 'p', 'i', 'd', 'f', ']', ' ', ' ', ' ', ' ', ' ', ' ', ' ', ' ', ' ', ' ', ' ', ' ', ' ', ' ', ' ', ' ', '|', ' ', 'r', 'i', 's', 'c', 'v', '3', '2', ' ', ' ', ' ', ' ', ' ', '|', ' ', 'e', 's', 'p', 'i', 'd', 'f', ' ', ' ', ' ', ' ', ' ', '|', ' ', 'n', 'e', 'w', 'l', 'i', 'b', ' ', ' ', ' ', ' ', ' ', '|'],
  ['|', ' ', '[', 'r', 'i', 's', 'c', 'v', '3', '2', 'i', 'm', 'c', '-', 'u', 'n', 'k', 'n', 'o', 'w', 'n', '-', 'n', 'u', 't', 't', 'x', '-', 'e', 'l', 'f', ']', ' ', ' ', ' ', ' ', ' ', ' ', ' ', ' ', ' ', '|', ' ', 'r', 'i', 's', 'c', 'v', '3', '2', ' ', ' ', ' ', ' ', ' ', '|', ' ', 'n', 'u', 't', 't', 'x', ' ', ' ', ' ', ' ', ' ', ' ', '|', ' ', ' ', ' ', ' ', ' ', ' ', ' ', ' ', ' ', ' ', ' ', ' ', '|']]

/-- `platforms/README.md:338-362`. -/
def readme11 : List Str := [
  ['|', ' ', '[', 'r', 'i', 's', 'c', 'v', '3', '2', 'i', 'm', 'f', 'c', '-', 'u', 'n', 'k', 'n', 'o', 'w', 'n', '-', 'n', 'o', 'n', 'e', '-', 'e', 'l', 'f', ']', ' ', ' ', ' ', ' ', ' ', ' ', ' ', ' ', ' ', '|', ' ', 'r', 'i', 's', 'c', 'v', '3', '2', ' ', ' ', ' ', ' ', ' ', '|', ' ', 'n', 'o', 'n', 'e', ' ', ' ', ' ', ' ', ' ', ' ', ' ', '|', ' ', ' ', ' ', ' ', ' ', ' ', ' ', ' ', ' ', ' ', ' ', ' ', '|'],
  ['|', ' ', '[', 'r', 'i', 's', 'c', 'v', '6', '4', '-', 'l', 'i', 'n', 'u', 'x', '-', 'a', 'n', 'd', 'r', 'o', 'i', 'd', ']', ' ', ' ', ' ', ' ', ' ', ' ', ' ', ' ', ' ', ' ', ' ', ' ', ' ', ' ', ' ', ' ', '|', ' ', 'r', 'i', 's', 'c', 'v', '6', '4', ' ', ' ', ' ', ' ', ' ', '|', ' ', 'a', 'n', 'd', 'r', 'o', 'i', 'd', ' ', ' ', ' ', ' ', '|', ' ', ' ', ' ', ' ', ' ', ' ', ' ', ' ', ' ', ' ', ' ', ' ', '|'],
  ['|', ' ', '[', 'r', 'i', 's', 'c', 'v', '6', '4', '-', 'o', 'e', '-', 'l', 'i', 'n', 'u', 'x', '-', 'g', 'n', 'u', ']', ' ', ' ', ' ', ' ', ' ', ' ', ' ', ' ', ' ', ' ', ' ', ' ', ' ', ' ', ' ', ' ', ' ', '|', ' ', 'r', 'i', 's', 'c', 'v', '6', '4', ' ', ' ', ' ', ' ', ' ', '|', ' ', 'l', 'i', 'n', 'u', 'x', ' ', ' ', ' ', ' ', ' ', ' ', '|', ' ', 'g', 'n', 'u', ' ', ' ', ' ', ' ', ' ', ' ', ' ', ' ', '|'],
  ['|', ' ', '[', 'r', 'i', 's', 'c', 'v', '6', '4', '-', 'w', 'r', 's', '-', 'v', 'x', 'w', 'o', 'r', 'k', 's', ']', ' ', ' ', ' ', ' ', ' ', ' ', ' ', ' ', ' ', ' ', ' ', ' ', ' ', ' ', ' ', ' ', ' ', ' ', '|', ' ', 'r', 'i', 's', 'c', 'v', '6', '4', ' ', ' ', ' ', ' ', ' ', '|', ' ', 'v', 'x', 'w', 'o', 'r', 'k', 's', ' ', ' ', ' ', ' ', '|', ' ', 'g', 'n', 'u', ' ', ' ', ' ', ' ', ' ', ' ', ' ', ' ', '|'],
  ['|', ' ', '[', 'r', 'i', 's', 'c', 'v', '6', '4', 'g', 'c', '-', 'u', 'n', 'k', 'n', 'o', 'w', 'n', '-', 'f', 'r', 'e', 'e', 'b', 's', 'd', ']', ' ', ' ', ' ', ' ', ' ', ' ', ' ', ' ', ' ', ' ', ' ', ' ', '|', ' ', 'r', 'i', 's', 'c', 'v', '6', '4', ' ', ' ', ' ', ' ', ' ', '|', ' ', 'f', 'r', 'e', 'e', 'b', 's', 'd', ' ', ' ', ' ', ' ', '|', ' ', ' ', ' ', ' ', ' ', ' ', ' ', ' ', ' ', ' ', ' ', ' ', '|'],
  ['|', ' ', '[', 'r', 'i', 's', 'c', 'v', '6', '4', 'g', 'c', '-', 'u', 'n', 'k', 'n', 'o', 'w', 'n', '-', 'f', 'u', 'c', 'h', 's', 'i', 'a', ']', ' ', ' ', ' ', ' ', ' ', ' ', ' ', ' ', ' ', ' ', ' ', ' ', '|', ' ', 'r', 'i', 's', 'c', 'v', '6', '4', ' ', ' ', ' ', ' ', ' ', '|', ' ', 'f', 'u', 'c', 'h', 's', 'i', 'a', ' ', ' ', ' ', ' ', '|', ' ', ' ', ' ', ' ', ' ', ' ', ' ', ' ', ' ', ' ', ' ', ' ', '|'],
  ['|', ' ', '[', 'r', 'i', 's', 'c', 'v', '6', '4', 'g', 'c', '-', 'u', 'n', 'k', 'n', 'o', 'w', 'n', '-', 'h', 'e', 'r', 'm', 'i', 't', ']', ' ', ' ', ' ', ' ', ' ', ' ', ' ', ' ', ' ', ' ', ' ', ' ', ' ', '|', ' ', 'r', 'i', 's', 'c', 'v', '6', '4', ' ', ' ', ' ', ' ', ' ', '|', ' ', 'h', 'e', 'r', 'm', 'i', 't', ' ', ' ', ' ', ' ', ' ', '|', ' ', ' ', ' ', ' ', ' ', ' ', ' ', ' ', ' ', ' ', ' ', ' ', '|'],
  ['|', ' ', '[', 'r', 'i', 's', 'c', 'v', '6', '4', 'g', 'c', '-', 'u', 'n', 'k', 'n', 'o', 'w', 'n', '-', 'm', 'a', 'n', 'a', 'g', 'a', 'r', 'm', '-', 'm', 'l', 'i', 'b', 'c', ']', ' ', ' ', ' ', ' ', ' ', '|', ' ', 'r', 'i', 's', 'c', 'v', '6', '4', ' ', ' ', ' ', ' ', ' ', '|', ' ', 'm', 'a', 'n', 'a', 'g', 'a', 'r', 'm', ' ', ' ', ' ', '|', ' ', 'm', 'l', 'i', 'b', 'c', ' ', ' ', ' ', ' ', ' ', ' ', '|'],
  ['|', ' ', '[', 'r', 'i', 's', 'c', 'v', '6', '4', 'g', 'c', '-', 'u', 'n', 'k', 'n', 'o', 'w', 'n', '-', 'n', 'e', 't', 'b', 's', 'd', ']', ' ', ' ', ' ', ' ', ' ', ' ', ' ', ' ', ' ', ' ', ' ', ' ', ' ', '|', ' ', 'r', 'i', 's', 'c', 'v', '6', '4', ' ', ' ', ' ', ' ', ' ', '|', ' ', 'n', 'e', 't', 'b', 's', 'd', ' ', ' ', ' ', ' ', ' ', '|', ' ', ' ', ' ', ' ', ' ', ' ', ' ', ' ', ' ', ' ', ' ', ' ', '|'],
  ['|', ' ', '[', 'r', 'i', 's', 'c', 'v', '6', '4', 'g', 'c', '-', 'u', 'n', 'k', 'n', 'o', 'w', 'n', '-', 'n', 'u', 't', 't', 'x', '-', 'e', 'l', 'f', ']', ' ', ' ', ' ', ' ', ' ', ' ', ' ', ' ', ' ', ' ', '|', ' ', 'r', 'i', 's', 'c', 'v', '6', '4', ' ', ' ', ' ', ' ', ' ', '|', ' ', 'n', 'u', 't', 't', 'x', ' ', ' ', ' ', ' ', ' ', ' ', '|', ' ', ' ', ' ', ' ', ' ', ' ', ' ', ' ', ' ', ' ', ' ', ' ', '|'],
  ['|', ' ', '[', 'r', 'i', 's', 'c', 'v', '6', '4', 'g', 'c', '-', 'u', 'n', 'k', 'n', 'o', 'w', 'n', '-', 'o', 'p', 'e', 'n', 'b', 's', 'd', ']', ' ', ' ', ' ', ' ', ' ', ' ', ' ', ' ', ' ', ' ', ' ', ' ', '|', ' ', 'r', 'i', 's', 'c', 'v', '6', '4', ' ', ' ', ' ', ' ', ' ', '|', ' ', 'o', 'p', 'e', 'n', 'b', 's', 'd', ' ', ' ', ' ', ' ', '|', ' ', ' ', ' ', ' ', ' ', ' ', ' ', ' ', ' ', ' ', ' ', ' ', '|'],
  ['|', ' ', '[', 'r', 'i', 's', 'c', 'v', '6', '4', 'g', 'c', '-', 'u', 'n', 'k', 'n', 'o', 'w', 'n', '-', 'r', 'e', 'd', 'o', 'x', ']', ' ', ' ', ' ', ' ', ' ', ' ', ' ', ' ', ' ', ' ', ' ', ' ', ' ', ' ', '|', ' ', 'r', 'i', 's', 'c', 'v', '6', '4', ' ', ' ', ' ', ' ', ' ', '|', ' ', 'r', 'e', 'd', 'o', 'x', ' ', ' ', ' ', ' ', ' ', ' ', '|', ' ', 'r', 'e', 'l', 'i', 'b', 'c', ' ', ' ', ' ', ' ', ' ', '|'],
  ['|', ' ', '[', 'r', 'i', 's', 'c', 'v', '6', '4', 'i', 'm', 'a', 'c', '-', 'u', 'n', 'k', 'n', 'o', 'w', 'n', '-', 'n', 'u', 't', 't', 'x', '-', 'e', 'l', 'f', ']', ' ', ' ', ' ', ' ', ' ', ' ', ' ', ' ', '|', ' ', 'r', 'i', 's', 'c', 'v', '6', '4', ' ', ' ', ' ', ' ', ' ', '|', ' ', 'n', 'u', 't', 't', 'x', ' ', ' ', ' ', ' ', ' ', ' ', '|', ' ', ' ', ' ', ' ', ' ', ' ', ' ', ' ', ' ', ' ', ' ', ' ', '|'],
  ['|', ' ', '[', 's', '3', '9', '0', 'x', '-', 'u', 'n', 'k', 'n', 'o', 'w', 'n', '-', 'l', 'i', 'n', 'u', 'x', '-', 'm', 'u', 's', 'l', ']', ' ', ' ', ' ', ' ', ' ', ' ', ' ', ' ', ' ', ' ', ' ', ' ', ' ', '|', ' ', 's', '3', '9', '0', 'x', ' ', ' ', ' ', ' ', ' ', ' ', ' ', '|', ' ', 'l', 'i', 'n', 'u', 'x', ' ', ' ', ' ', ' ', ' ', ' ', '|', ' ', 'm', 'u', 's', 'l', ' ', ' ', ' ', ' ', ' ', ' ', ' ', '|'],
  ['|', ' ', '[', 's', 'p', 'a', 'r', 'c', '-', 'u', 'n', 'k', 'n', 'o', 'w', 'n', '-', 'l', 'i', 'n', 'u', 'x', '-', 'g', 'n', 'u', ']', ' ', ' ', ' ', ' ', ' ', ' ', ' ', ' ', ' ', ' ', ' ', ' ', ' ', ' ', '|', ' ', 's', 'p', 'a', 'r', 'c', ' ', ' ', ' ', ' ', ' ', ' ', ' ', '|', ' ', 'l', 'i', 'n', 'u', 'x', ' ', ' ', ' ', ' ', ' ', ' ', '|', ' ', 'g', 'n', 'u', ' ', ' ', ' ', ' ', ' ', ' ', ' ', ' ', '|'],
  ['|', ' ', '[', 's', 'p', 'a', 'r', 'c', '-', 'u', 'n', 'k', 'n', 'o', 'w', 'n', '-', 'n', 'o', 'n', 'e', '-', 'e', 'l', 'f', ']', ' ', ' ', ' ', ' ', ' ', ' ', ' ', ' ', ' ', ' ', ' ', ' ', ' ', ' ', ' ', '|', ' ', 's', 'p', 'a', 'r', 'c', ' ', ' ', ' ', ' ', ' ', ' ', ' ', '|', ' ', 'n', 'o', 'n', 'e', ' ', ' ', ' ', ' ', ' ', ' ', ' ', '|', ' ', ' ', ' ', ' ', ' ', ' ', ' ', ' ', ' ', ' ', ' ', ' ', '|'],
  ['|', ' ', '[', 's', 'p', 'a', 'r', 'c', '6', '4', '-', 'u', 'n', 'k', 'n', 'o', 'w', 'n', '-', 'h', 'e', 'l', 'e', 'n', 'o', 's', ']', ' ', ' ', ' ', ' ', ' ', ' ', ' ', ' ', ' ', ' ', ' ', ' ', ' ', ' ', '|', ' ', 's', 'p', 'a', 'r', 'c', '6', '4', ' ', ' ', ' ', ' ', ' ', '|', ' ', 'h', 'e', 'l', 'e', 'n', 'o', 's', ' ', ' ', ' ', ' ', '|', ' ', ' ', ' ', ' ', ' ', ' ', ' ', ' ', ' ', ' ', ' ', ' ', '|'],
  ['|', ' ', '[', 's', 'p', 'a', 'r', 'c', '6', '4', '-', 'u', 'n', 'k', 'n', 'o', 'w', 'n', '-', 'n', 'e', 't', 'b', 's', 'd', ']', ' ', ' ', ' ', ' ', ' ', ' ', ' ', ' ', ' ', ' ', ' ', ' ', ' ', ' ', ' ', '|', ' ', 's', 'p', 'a', 'r', 'c', '6', '4', ' ', ' ', ' ', ' ', ' ', '|', ' ', 'n', 'e', 't', 'b', 's', 'd', ' ', ' ', ' ', ' ', ' ', '|', ' ', ' ', ' ', ' ', ' ', ' ', ' ', ' ', ' ', ' ', ' ', ' ', '|'],
  ['|', ' ', '[', 's', 'p', 'a', 'r', 'c', '6', '4', '-', 'u', 'n', 'k', 'n', 'o', 'w', 'n', '-', 'o', 'p', 'e', 'n', 'b', 's', 'd', ']', ' ', ' ', ' ', ' ', ' ', ' ', ' ', ' ', ' ', ' ', ' ', ' ', ' ', ' ', '|', ' ', 's', 'p', 'a', 'r', 'c', '6', '4', ' ', ' ', ' ', ' ', ' ', '|', ' ', 'o', 'p', 'e', 'n', 'b', 's', 'd', ' ', ' ', ' ', ' ', '|', ' ', ' ', ' ', ' ', ' ', ' ', ' ', ' ', ' ', ' ', ' ', ' ', '|'],
  ['|', ' ', '[', 't', 'h', 'u', 'm', 'b', 'v', '4', 't', '-', 'n', 'o', 'n', 'e', '-', 'e', 'a', 'b', 'i', ']', ' ', ' ', ' ', ' ', ' ', ' ', ' ', ' ', ' ', ' ', ' ', ' ', ' ', ' ', ' ', ' ', ' ', ' ', ' ', '|', ' ', 'a', 'r', 'm', ' ', ' ', ' ', ' ', ' ', ' ', ' ', ' ', ' ', '|', ' ', 'n', 'o', 'n', 'e', ' ', ' ', ' ', ' ', ' ', ' ', ' ', '|', ' ', ' ', ' ', ' ', ' ', ' ', ' ', ' ', ' ', ' ', ' ', ' ', '|'],
  ['|', ' ', '[', 't', 'h', 'u', 'm', 'b', 'v', '5', 't', 'e', '-', 'n', 'o', 'n', 'e', '-', 'e', 'a', 'b', 'i', ']', ' ', ' ', ' ', ' ', ' ', ' ', ' ', ' ', ' ', ' ', ' ', ' ', ' ', ' ', ' ', ' ', ' ', ' ', '|', ' ', 'a', 'r', 'm', ' ', ' ', ' ', ' ', ' ', ' ', ' ', ' ', ' ', '|', ' ', 'n', 'o', 'n', 'e', ' ', ' ', ' ', ' ', ' ', ' ', ' ', '|', ' ', ' ', ' ', ' ', ' ', ' ', ' ', ' ', ' ', ' ', ' ', ' ', '|'],
  ['|', ' ', '[', 't', 'h', 'u', 'm', 'b', 'v', '6', '-', 'n', 'o', 'n', 'e', '-', 'e', 'a', 'b', 'i', ']', ' ', ' ', ' ', ' ', ' ', ' ', ' ', ' ', ' ', ' ', ' ', ' ', ' ', ' ', ' ', ' ', ' ', ' ', ' ', ' ', '|', ' ', 'a', 'r', 'm', ' ', ' ', ' ', ' ', ' ', ' ', ' ', ' ', ' ', '|', ' ', 'n', 'o', 'n', 'e', ' ', ' ', ' ', ' ', ' ', ' ', ' ', '|', ' ', ' ', ' ', ' ', ' ', ' ', ' ', ' ', ' ', ' ', ' ', ' ', '|'],
  ['|', ' ', '[', 't', 'h', 'u', 'm', 'b', 'v', '6', 'm', '-', 'n', 'u', 't', 't', 'x', '-', 'e', 'a', 'b', 'i', ']', ' ', ' ', ' ', ' ', ' ', ' ', ' ', ' ', ' ', ' ', ' ', ' ', ' ', ' ', ' ', ' ', ' ', ' ', '|', ' ', 'a', 'r', 'm', ' ', ' ', ' ', ' ', ' ', ' ', ' ', ' ', ' ', '|', ' ', 'n', 'u', 't', 't', 'x', ' ', ' ', ' ', ' ', ' ', ' ', '|', ' ', ' ', ' ', ' ', ' ', ' ', ' ', ' ', ' ', ' ', ' ', ' ', '|'],
  ['|', ' ', '[', 't', 'h', 'u', 'm', 'b', 'v', '7', 'a', '-', 'n', 'u', 't', 't', 'x', '-', 'e', 'a', 'b', 'i', ']', ' ', ' ', ' ', ' ', ' ', ' ', ' ', ' ', ' ', ' ', ' ', ' ', ' ', ' ', ' ', ' ', ' ', ' ', '|', ' ', 'a', 'r', 'm', ' ', ' ', ' ', ' ', ' ', ' ', ' ', ' ', ' ', '|', ' ', 'n', 'u', 't', 't', 'x', ' ', ' ', ' ', ' ', ' ', ' ', '|', ' ', ' ', ' ', ' ', ' ', ' ', ' ', ' ', ' ', ' ', ' ', ' ', '|'],
  ['|', ' ', '[', 't', 'h', 'u', 'm', 'b', 'v', '7', 'a', '-', 'n', 'u', 't', 't', 'x', '-', 'e', 'a', 'b', 'i', 'h', 'f', ']', ' ', ' ', ' ', ' ', ' ', ' ', ' ', ' ', ' ', ' ', ' ', ' ', ' ', ' ', ' ', ' ', '|', ' ', 'a', 'r', 'm', ' ', ' ', ' ', ' ', ' ', ' ', ' ', ' ', ' ', '|', ' ', 'n', 'u', 't', 't', 'x', ' ', ' ', ' ', ' ', ' ', ' ', '|', ' ', ' ', ' ', ' ', ' ', ' ', ' ', ' ', ' ', ' ', ' ', ' ', '|']]

/-- `platforms/README.md:363-387`. -/
def readme12 : List Str := [
  ['|', ' ', '[', 't', 'h', 'u', 'm', 'b', 'v', '7', 'a', '-', 'p', 'c', '-', 'w', 'i', 'n', 'd', 'o', 'w', 's', '-', 'm', 's', 'v', 'c', ']', ' ', ' ', ' ', ' ', ' ', ' ', ' ', ' ', ' ', ' ', ' ', ' ', ' ', '|', ' ', 'a', 'r', 'm', ' ', ' ', ' ', ' ', ' ', ' ', ' ', ' ', ' ', '|', ' ', 'w', 'i', 'n', 'd', 'o', 'w', 's', ' ', ' ', ' ', ' ', '|', ' ', 'm', 's', 'v', 'c', ' ', ' ', ' ', ' ', ' ', ' ', ' ', '|'],
  ['|', ' ', '[', 't', 'h', 'u', 'm', 'b', 'v', '7', 'a', '-', 'u', 'w', 'p', '-', 'w', 'i', 'n', 'd', 'o', 'w', 's', '-', 'm', 's', 'v', 'c', ']', ' ', ' ', ' ', ' ', ' ', ' ', ' ', ' ', ' ', ' ', ' ', ' ', '|', ' ', 'a', 'r', 'm', ' ', ' ', ' ', ' ', ' ', ' ', ' ', ' ', ' ', '|', ' ', 'w', 'i', 'n', 'd', 'o', 'w', 's', ' ', ' ', ' ', ' ', '|', ' ', 'm', 's', 'v', 'c', ' ', ' ', ' ', ' ', ' ', ' ', ' ', '|'],
  ['|', ' ', '[', 't', 'h', 'u', 'm', 'b', 'v', '7', 'a', '-', 'v', 'e', 'x', '-', 'v', '5', ']', ' ', ' ', ' ', ' ', ' ', ' ', ' ', ' ', ' ', ' ', ' ', ' ', ' ', ' ', ' ', ' ', ' ', ' ', ' ', ' ', ' ', ' ', '|', ' ', 'a', 'r', 'm', ' ', ' ', ' ', ' ', ' ', ' ', ' ', ' ', ' ', '|', ' ', 'v', 'e', 'x', 'o', 's', ' ', ' ', ' ', ' ', ' ', ' ', '|', ' ', 'v', '5', ' ', ' ', ' ', ' ', ' ', ' ', ' ', ' ', ' ', '|'],
  ['|', ' ', '[', 't', 'h', 'u', 'm', 'b', 'v', '7', 'e', 'm', '-', 'n', 'u', 't', 't', 'x', '-', 'e', 'a', 'b', 'i', ']', ' ', ' ', ' ', ' ', ' ', ' ', ' ', ' ', ' ', ' ', ' ', ' ', ' ', ' ', ' ', ' ', ' ', '|', ' ', 'a', 'r', 'm', ' ', ' ', ' ', ' ', ' ', ' ', ' ', ' ', ' ', '|', ' ', 'n', 'u', 't', 't', 'x', ' ', ' ', ' ', ' ', ' ', ' ', '|', ' ', ' ', ' ', ' ', ' ', ' ', ' ', ' ', ' ', ' ', ' ', ' ', '|'],
  ['|', ' ', '[', 't', 'h', 'u', 'm', 'b', 'v', '7', 'e', 'm', '-', 'n', 'u', 't', 't', 'x', '-', 'e', 'a', 'b', 'i', 'h', 'f', ']', ' ', ' ', ' ', ' ', ' ', ' ', ' ', ' ', ' ', ' ', ' ', ' ', ' ', ' ', ' ', '|', ' ', 'a', 'r', 'm', ' ', ' ', ' ', ' ', ' ', ' ', ' ', ' ', ' ', '|', ' ', 'n', 'u', 't', 't', 'x', ' ', ' ', ' ', ' ', ' ', ' ', '|', ' ', ' ', ' ', ' ', ' ', ' ', ' ', ' ', ' ', ' ', ' ', ' ', '|'],
  ['|', ' ', '[', 't', 'h', 'u', 'm', 'b', 'v', '7', 'm', '-', 'n', 'u', 't', 't', 'x', '-', 'e', 'a', 'b', 'i', ']', ' ', ' ', ' ', ' ', ' ', ' ', ' ', ' ', ' ', ' ', ' ', ' ', ' ', ' ', ' ', ' ', ' ', ' ', '|', ' ', 'a', 'r', 'm', ' ', ' ', ' ', ' ', ' ', ' ', ' ', ' ', ' ', '|', ' ', 'n', 'u', 't', 't', 'x', ' ', ' ', ' ', ' ', ' ', ' ', '|', ' ', ' ', ' ', ' ', ' ', ' ', ' ', ' ', ' ', ' ', ' ', ' ', '|'],
  ['|', ' ', '[', 't', 'h', 'u', 'm', 'b', 'v', '7', 'n', 'e', 'o', 'n', '-', 'u', 'n', 'k', 'n', 'o', 'w', 'n', '-', 'l', 'i', 'n', 'u', 'x', '-', 'm', 'u', 's', 'l', 'e', 'a', 'b', 'i', 'h', 'f', ']', ' ', '|', ' ', 'a', 'r', 'm', ' ', ' ', ' ', ' ', ' ', ' ', ' ', ' ', ' ', '|', ' ', 'l', 'i', 'n', 'u', 'x', ' ', ' ', ' ', ' ', ' ', ' ', '|', ' ', 'm', 'u', 's', 'l', ' ', ' ', ' ', ' ', ' ', ' ', ' ', '|'],
  ['|', ' ', '[', 't', 'h', 'u', 'm', 'b', 'v', '8', 'm', '.', 'b', 'a', 's', 'e', '-', 'n', 'u', 't', 't', 'x', '-', 'e', 'a', 'b', 'i', ']', ' ', ' ', ' ', ' ', ' ', ' ', ' ', ' ', ' ', ' ', ' ', ' ', ' ', '|', ' ', 'a', 'r', 'm', ' ', ' ', ' ', ' ', ' ', ' ', ' ', ' ', ' ', '|', ' ', 'n', 'u', 't', 't', 'x', ' ', ' ', ' ', ' ', ' ', ' ', '|', ' ', ' ', ' ', ' ', ' ', ' ', ' ', ' ', ' ', ' ', ' ', ' ', '|'],
  ['|', ' ', '[', 't', 'h', 'u', 'm', 'b', 'v', '8', 'm', '.', 'm', 'a', 'i', 'n', '-', 'n', 'u', 't', 't', 'x', '-', 'e', 'a', 'b', 'i', ']', ' ', ' ', ' ', ' ', ' ', ' ', ' ', ' ', ' ', ' ', ' ', ' ', ' ', '|', ' ', 'a', 'r', 'm', ' ', ' ', ' ', ' ', ' ', ' ', ' ', ' ', ' ', '|', ' ', 'n', 'u', 't', 't', 'x', ' ', ' ', ' ', ' ', ' ', ' ', '|', ' ', ' ', ' ', ' ', ' ', ' ', ' ', ' ', ' ', ' ', ' ', ' ', '|'],
  ['|', ' ', '[', 't', 'h', 'u', 'm', 'b', 'v', '8', 'm', '.', 'm', 'a', 'i', 'n', '-', 'n', 'u', 't', 't', 'x', '-', 'e', 'a', 'b', 'i', 'h', 'f', ']', ' ', ' ', ' ', ' ', ' ', ' ', ' ', ' ', ' ', ' ', ' ', '|', ' ', 'a', 'r', 'm', ' ', ' ', ' ', ' ', ' ', ' ', ' ', ' ', ' ', '|', ' ', 'n', 'u', 't', 't', 'x', ' ', ' ', ' ', ' ', ' ', ' ', '|', ' ', ' ', ' ', ' ', ' ', ' ', ' ', ' ', ' ', ' ', ' ', ' ', '|'],
  ['|', ' ', '[', 'w', 'a', 's', 'm', '3', '2', '-', 'w', 'a', 'l', 'i', '-', 'l', 'i', 'n', 'u', 'x', '-', 'm', 'u', 's', 'l', ']', ' ', ' ', ' ', ' ', ' ', ' ', ' ', ' ', ' ', ' ', ' ', ' ', ' ', ' ', ' ', '|', ' ', 'w', 'a', 's', 'm', '3', '2', ' ', ' ', ' ', ' ', ' ', ' ', '|', ' ', 'l', 'i', 'n', 'u', 'x', ' ', ' ', ' ', ' ', ' ', ' ', '|', ' ', 'm', 'u', 's', 'l', ' ', ' ', ' ', ' ', ' ', ' ', ' ', '|'],
  ['|', ' ', '[', 'w', 'a', 's', 'm', '3', '2', '-', 'w', 'a', 's', 'i', 'p', '3', ']', ' ', ' ', ' ', ' ', ' ', ' ', ' ', ' ', ' ', ' ', ' ', ' ', ' ', ' ', ' ', ' ', ' ', ' ', ' ', ' ', ' ', ' ', ' ', ' ', '|', ' ', 'w', 'a', 's', 'm', '3', '2', ' ', ' ', ' ', ' ', ' ', ' ', '|', ' ', 'w', 'a', 's', 'i', ' ', ' ', ' ', ' ', ' ', ' ', ' ', '|', ' ', 'p', '3', ' ', ' ', ' ', ' ', ' ', ' ', ' ', ' ', ' ', '|'],
  ['|', ' ', '[', 'w', 'a', 's', 'm', '6', '4', '-', 'u', 'n', 'k', 'n', 'o', 'w', 'n', '-', 'u', 'n', 'k', 'n', 'o', 'w', 'n', ']', ' ', ' ', ' ', ' ', ' ', ' ', ' ', ' ', ' ', ' ', ' ', ' ', ' ', ' ', ' ', '|', ' ', 'w', 'a', 's', 'm', '6', '4', ' ', ' ', ' ', ' ', ' ', ' ', '|', ' ', 'u', 'n', 'k', 'n', 'o', 'w', 'n', ' ', ' ', ' ', ' ', '|', ' ', ' ', ' ', ' ', ' ', ' ', ' ', ' ', ' ', ' ', ' ', ' ', '|'],
  ['|', ' ', '[', 'x', '8', '6', '_', '6', '4', '-', 'a', 'p', 'p', 'l', 'e', '-', 't', 'v', 'o', 's', ']', ' ', ' ', ' ', ' ', ' ', ' ', ' ', ' ', ' ', ' ', ' ', ' ', ' ', ' ', ' ', ' ', ' ', ' ', ' ', ' ', '|', ' ', 'x', '8', '6', '_', '6', '4', ' ', ' ', ' ', ' ', ' ', ' ', '|', ' ', 't', 'v', 'o', 's', ' ', ' ', ' ', ' ', ' ', ' ', ' ', '|', ' ', 's', 'i', 'm', ' ', ' ', ' ', ' ', ' ', ' ', ' ', ' ', '|'],
  ['|', ' ', '[', 'x', '8', '6', '_', '6', '4', '-', 'a', 'p', 'p', 'l', 'e', '-', 'w', 'a', 't', 'c', 'h', 'o', 's', '-', 's', 'i', 'm', ']', ' ', ' ', ' ', ' ', ' ', ' ', ' ', ' ', ' ', ' ', ' ', ' ', ' ', '|', ' ', 'x', '8', '6', '_', '6', '4', ' ', ' ', ' ', ' ', ' ', ' ', '|', ' ', 'w', 'a', 't', 'c', 'h', 'o', 's', ' ', ' ', ' ', ' ', '|', ' ', 's', 'i', 'm', ' ', ' ', ' ', ' ', ' ', ' ', ' ', ' ', '|'],
  ['|', ' ', '[', 'x', '8', '6', '_', '6', '4', '-', 'l', 'y', 'n', 'x', '-', 'l', 'y', 'n', 'x', 'o', 's', '1', '7', '8', ']', ' ', ' ', ' ', ' ', ' ', ' ', ' ', ' ', ' ', ' ', ' ', ' ', ' ', ' ', ' ', ' ', '|', ' ', 'x', '8', '6', '_', '6', '4', ' ', ' ', ' ', ' ', ' ', ' ', '|', ' ', 'l', 'y', 'n', 'x', 'o', 's', '1', '7', '8', ' ', ' ', '|', ' ', ' ', ' ', ' ', ' ', ' ', ' ', ' ', ' ', ' ', ' ', ' ', '|'],
  ['|', ' ', '[', 'x', '8', '6', '_', '6', '4', '-', 'o', 'e', '-', 'l', 'i', 'n', 'u', 'x', '-', 'g', 'n', 'u', ']', ' ', ' ', ' ', ' ', ' ', ' ', ' ', ' ', ' ', ' ', ' ', ' ', ' ', ' ', ' ', ' ', ' ', ' ', '|', ' ', 'x', '8', '6', '_', '6', '4', ' ', ' ', ' ', ' ', ' ', ' ', '|', ' ', 'l', 'i', 'n', 'u', 'x', ' ', ' ', ' ', ' ', ' ', ' ', '|', ' ', 'g', 'n', 'u', ' ', ' ', ' ', ' ', ' ', ' ', ' ', ' ', '|'],
  ['|', ' ', '[', 'x', '8', '6', '_', '6', '4', '-', 'p', 'c', '-', 'c', 'y', 'g', 'w', 'i', 'n', ']', ' ', ' ', ' ', ' ', ' ', ' ', ' ', ' ', ' ', ' ', ' ', ' ', ' ', ' ', ' ', ' ', ' ', ' ', ' ', ' ', ' ', '|', ' ', 'x', '8', '6', '_', '6', '4', ' ', ' ', ' ', ' ', ' ', ' ', '|', ' ', 'c', 'y', 'g', 'w', 'i', 'n', ' ', ' ', ' ', ' ', ' ', '|', ' ', ' ', ' ', ' ', ' ', ' ', ' ', ' ', ' ', ' ', ' ', ' ', '|'],
  ['|', ' ', '[', 'x', '8', '6', '_', '6', '4', '-', 'p', 'c', '-', 'n', 't', 'o', '-', 'q', 'n', 'x', '7', '1', '0', ']', ' ', ' ', ' ', ' ', ' ', ' ', ' ', ' ', ' ', ' ', ' ', ' ', ' ', ' ', ' ', ' ', ' ', '|', ' ', 'x', '8', '6', '_', '6', '4', ' ', ' ', ' ', ' ', ' ', ' ', '|', ' ', 'n', 't', 'o', ' ', ' ', ' ', ' ', ' ', ' ', ' ', ' ', '|', ' ', 'n', 't', 'o', '7', '1', ' ', ' ', ' ', ' ', ' ', ' ', '|'],
  ['|', ' ', '[', 'x', '8', '6', '_', '6', '4', '-', 'p', 'c', '-', 'n', 't', 'o', '-', 'q', 'n', 'x', '7', '1', '0', '_', 'i', 'o', 's', 'o', 'c', 'k', ']', ' ', ' ', ' ', ' ', ' ', ' ', ' ', ' ', ' ', ' ', '|', ' ', 'x', '8', '6', '_', '6', '4', ' ', ' ', ' ', ' ', ' ', ' ', '|', ' ', 'n', 't', 'o', ' ', ' ', ' ', ' ', ' ', ' ', ' ', ' ', '|', ' ', 'n', 't', 'o', '7', '1', '_', 'i', 'o', 's', 'o', 'c', 'k', ' ', '|'],
  ['|', ' ', '[', 'x', '8', '6', '_', '6', '4', '-', 'p', 'c', '-', 'q', 'n', 'x', ']', ' ', ' ', ' ', ' ', ' ', ' ', ' ', ' ', ' ', ' ', ' ', ' ', ' ', ' ', ' ', ' ', ' ', ' ', ' ', ' ', ' ', ' ', ' ', ' ', '|', ' ', 'x', '8', '6', '_', '6', '4', ' ', ' ', ' ', ' ', ' ', ' ', '|', ' ', 'q', 'n', 'x', ' ', ' ', ' ', ' ', ' ', ' ', ' ', ' ', '|', ' ', ' ', ' ', ' ', ' ', ' ', ' ', ' ', ' ', ' ', ' ', ' ', '|'],
  ['|', ' ', '[', 'x', '8', '6', '_', '6', '4', '-', 'u', 'n', 'i', 'k', 'r', 'a', 'f', 't', '-', 'l', 'i', 'n', 'u', 'x', '-', 'm', 'u', 's', 'l', ']', ' ', ' ', ' ', ' ', ' ', ' ', ' ', ' ', ' ', ' ', ' ', '|', ' ', 'x', '8', '6', '_', '6', '4', ' ', ' ', ' ', ' ', ' ', ' ', '|', ' ', 'l', 'i', 'n', 'u', 'x', ' ', ' ', ' ', ' ', ' ', ' ', '|', ' ', 'm', 'u', 's', 'l', ' ', ' ', ' ', ' ', ' ', ' ', ' ', '|'],
  ['|', ' ', '[', 'x', '8', '6', '_', '6', '4', '-', 'u', 'n', 'k', 'n', 'o', 'w', 'n', '-', 'd', 'r', 'a', 'g', 'o', 'n', 'f', 'l', 'y', ']', ' ', ' ', ' ', ' ', ' ', ' ', ' ', ' ', ' ', ' ', ' ', ' ', ' ', '|', ' ', 'x', '8', '6', '_', '6', '4', ' ', ' ', ' ', ' ', ' ', ' ', '|', ' ', 'd', 'r', 'a', 'g', 'o', 'n', 'f', 'l', 'y', ' ', ' ', '|', ' ', ' ', ' ', ' ', ' ', ' ', ' ', ' ', ' ', ' ', ' ', ' ', '|'],
  ['|', ' ', '[', 'x', '8', '6', '_', '6', '4', '-', 'u', 'n', 'k', 'n', 'o', 'w', 'n', '-', 'h', 'a', 'i', 'k', 'u', ']', ' ', ' ', ' ', ' ', ' ', ' ', ' ', ' ', ' ', ' ', ' ', ' ', ' ', ' ', ' ', ' ', ' ', '|', ' ', 'x', '8', '6', '_', '6', '4', ' ', ' ', ' ', ' ', ' ', ' ', '|', ' ', 'h', 'a', 'i', 'k', 'u', ' ', ' ', ' ', ' ', ' ', ' ', '|', ' ', ' ', ' ', ' ', ' ', ' ', ' ', ' ', ' ', ' ', ' ', ' ', '|'],
  ['|', ' ', '[', 'x', '8', '6', '_', '6', '4', '-', 'u', 'n', 'k', 'n', 'o', 'w', 'n', '-', 'h', 'e', 'l', 'e', 'n', 'o', 's', ']', ' ', ' ', ' ', ' ', ' ', ' ', ' ', ' ', ' ', ' ', ' ', ' ', ' ', ' ', ' ', '|', ' ', 'x', '8', '6', '_', '6', '4', ' ', ' ', ' ', ' ', ' ', ' ', '|', ' ', 'h', 'e', 'l', 'e', 'n', 'o', 's', ' ', ' ', ' ', ' ', '|', ' ', ' ', ' ', ' ', ' ', ' ', ' ', ' ', ' ', ' ', ' ', ' ', '|']]

/-- `platforms/README.md:388-412`. -/
def readme13 : List Str := [
  ['|', ' ', '[', 'x', '8', '6', '_', '6', '4', '-', 'u', 'n', 'k', 'n', 'o', 'w', 'n', '-', 'h', 'e', 'r', 'm', 'i', 't', ']', ' ', ' ', ' ', ' ', ' ', ' ', ' ', ' ', ' ', ' ', ' ', ' ', ' ', ' ', ' ', ' ', '|', ' ', 'x', '8', '6', '_', '6', '4', ' ', ' ', ' ', ' ', ' ', ' ', '|', ' ', 'h', 'e', 'r', 'm', 'i', 't', ' ', ' ', ' ', ' ', ' ', '|', ' ', ' ', ' ', ' ', ' ', ' ', ' ', ' ', ' ', ' ', ' ', ' ', '|'],
  ['|', ' ', '[', 'x', '8', '6', '_', '6', '4', '-', 'u', 'n', 'k', 'n', 'o', 'w', 'n', '-', 'h', 'u', 'r', 'd', '-', 'g', 'n', 'u', ']', ' ', ' ', ' ', ' ', ' ', ' ', ' ', ' ', ' ', ' ', ' ', ' ', ' ', ' ', '|', ' ', 'x', '8', '6', '_', '6', '4', ' ', ' ', ' ', ' ', ' ', ' ', '|', ' ', 'h', 'u', 'r', 'd', ' ', ' ', ' ', ' ', ' ', ' ', ' ', '|', ' ', 'g', 'n', 'u', ' ', ' ', ' ', ' ', ' ', ' ', ' ', ' ', '|'],
  ['|', ' ', '[', 'x', '8', '6', '_', '6', '4', '-', 'u', 'n', 'k', 'n', 'o', 'w', 'n', '-', 'l', '4', 'r', 'e', '-', 'u', 'c', 'l', 'i', 'b', 'c', ']', ' ', ' ', ' ', ' ', ' ', ' ', ' ', ' ', ' ', ' ', ' ', '|', ' ', 'x', '8', '6', '_', '6', '4', ' ', ' ', ' ', ' ', ' ', ' ', '|', ' ', 'l', '4', 'r', 'e', ' ', ' ', ' ', ' ', ' ', ' ', ' ', '|', ' ', 'u', 'c', 'l', 'i', 'b', 'c', ' ', ' ', ' ', ' ', ' ', '|'],
  ['|', ' ', '[', 'x', '8', '6', '_', '6', '4', '-', 'u', 'n', 'k', 'n', 'o', 'w', 'n', '-', 'l', 'i', 'n', 'u', 'x', '-', 'n', 'o', 'n', 'e', ']', ' ', ' ', ' ', ' ', ' ', ' ', ' ', ' ', ' ', ' ', ' ', ' ', '|', ' ', 'x', '8', '6', '_', '6', '4', ' ', ' ', ' ', ' ', ' ', ' ', '|', ' ', 'l', 'i', 'n', 'u', 'x', ' ', ' ', ' ', ' ', ' ', ' ', '|', ' ', ' ', ' ', ' ', ' ', ' ', ' ', ' ', ' ', ' ', ' ', ' ', '|'],
  ['|', ' ', '[', 'x', '8', '6', '_', '6', '4', '-', 'u', 'n', 'k', 'n', 'o', 'w', 'n', '-', 'm', 'a', 'n', 'a', 'g', 'a', 'r', 'm', '-', 'm', 'l', 'i', 'b', 'c', ']', ' ', ' ', ' ', ' ', ' ', ' ', ' ', ' ', '|', ' ', 'x', '8', '6', '_', '6', '4', ' ', ' ', ' ', ' ', ' ', ' ', '|', ' ', 'm', 'a', 'n', 'a', 'g', 'a', 'r', 'm', ' ', ' ', ' ', '|', ' ', 'm', 'l', 'i', 'b', 'c', ' ', ' ', ' ', ' ', ' ', ' ', '|'],
  ['|', ' ', '[', 'x', '8', '6', '_', '6', '4', '-', 'u', 'n', 'k', 'n', 'o', 'w', 'n', '-', 'm', 'o', 't', 'o', 'r', ']', ' ', ' ', ' ', ' ', ' ', ' ', ' ', ' ', ' ', ' ', ' ', ' ', ' ', ' ', ' ', ' ', ' ', '|', ' ', 'x', '8', '6', '_', '6', '4', ' ', ' ', ' ', ' ', ' ', ' ', '|', ' ', 'm', 'o', 't', 'o', 'r', ' ', ' ', ' ', ' ', ' ', ' ', '|', ' ', ' ', ' ', ' ', ' ', ' ', ' ', ' ', ' ', ' ', ' ', ' ', '|'],
  ['|', ' ', '[', 'x', '8', '6', '_', '6', '4', '-', 'u', 'n', 'k', 'n', 'o', 'w', 'n', '-', 'o', 'p', 'e', 'n', 'b', 's', 'd', ']', ' ', ' ', ' ', ' ', ' ', ' ', ' ', ' ', ' ', ' ', ' ', ' ', ' ', ' ', ' ', '|', ' ', 'x', '8', '6', '_', '6', '4', ' ', ' ', ' ', ' ', ' ', ' ', '|', ' ', 'o', 'p', 'e', 'n', 'b', 's', 'd', ' ', ' ', ' ', ' ', '|', ' ', ' ', ' ', ' ', ' ', ' ', ' ', ' ', ' ', ' ', ' ', ' ', '|'],
  ['|', ' ', '[', 'x', '8', '6', '_', '6', '4', '-', 'u', 'n', 'k', 'n', 'o', 'w', 'n', '-', 't', 'r', 'u', 's', 't', 'y', ']', ' ', ' ', ' ', ' ', ' ', ' ', ' ', ' ', ' ', ' ', ' ', ' ', ' ', ' ', ' ', ' ', '|', ' ', 'x', '8', '6', '_', '6', '4', ' ', ' ', ' ', ' ', ' ', ' ', '|', ' ', 't', 'r', 'u', 's', 't', 'y', ' ', ' ', ' ', ' ', ' ', '|', ' ', ' ', ' ', ' ', ' ', ' ', ' ', ' ', ' ', ' ', ' ', ' ', '|'],
  ['|', ' ', '[', 'x', '8', '6', '_', '6', '4', '-', 'u', 'w', 'p', '-', 'w', 'i', 'n', 'd', 'o', 'w', 's', '-', 'g', 'n', 'u', ']', ' ', ' ', ' ', ' ', ' ', ' ', ' ', ' ', ' ', ' ', ' ', ' ', ' ', ' ', ' ', '|', ' ', 'x', '8', '6', '_', '6', '4', ' ', ' ', ' ', ' ', ' ', ' ', '|', ' ', 'w', 'i', 'n', 'd', 'o', 'w', 's', ' ', ' ', ' ', ' ', '|', ' ', 'g', 'n', 'u', ' ', ' ', ' ', ' ', ' ', ' ', ' ', ' ', '|'],
  ['|', ' ', '[', 'x', '8', '6', '_', '6', '4', '-', 'u', 'w', 'p', '-', 'w', 'i', 'n', 'd', 'o', 'w', 's', '-', 'm', 's', 'v', 'c', ']', ' ', ' ', ' ', ' ', ' ', ' ', ' ', ' ', ' ', ' ', ' ', ' ', ' ', ' ', '|', ' ', 'x', '8', '6', '_', '6', '4', ' ', ' ', ' ', ' ', ' ', ' ', '|', ' ', 'w', 'i', 'n', 'd', 'o', 'w', 's', ' ', ' ', ' ', ' ', '|', ' ', 'm', 's', 'v', 'c', ' ', ' ', ' ', ' ', ' ', ' ', ' ', '|'],
  ['|', ' ', '[', 'x', '8', '6', '_', '6', '4', '-', 'w', 'i', 'n', '7', '-', 'w', 'i', 'n', 'd', 'o', 'w', 's', '-', 'g', 'n', 'u', ']', ' ', ' ', ' ', ' ', ' ', ' ', ' ', ' ', ' ', ' ', ' ', ' ', ' ', ' ', '|', ' ', 'x', '8', '6', '_', '6', '4', ' ', ' ', ' ', ' ', ' ', ' ', '|', ' ', 'w', 'i', 'n', 'd', 'o', 'w', 's', ' ', ' ', ' ', ' ', '|', ' ', 'g', 'n', 'u', ' ', ' ', ' ', ' ', ' ', ' ', ' ', ' ', '|'],
  ['|', ' ', '[', 'x', '8', '6', '_', '6', '4', '-', 'w', 'i', 'n', '7', '-', 'w', 'i', 'n', 'd', 'o', 'w', 's', '-', 'm', 's', 'v', 'c', ']', ' ', ' ', ' ', ' ', ' ', ' ', ' ', ' ', ' ', ' ', ' ', ' ', ' ', '|', ' ', 'x', '8', '6', '_', '6', '4', ' ', ' ', ' ', ' ', ' ', ' ', '|', ' ', 'w', 'i', 'n', 'd', 'o', 'w', 's', ' ', ' ', ' ', ' ', '|', ' ', 'm', 's', 'v', 'c', ' ', ' ', ' ', ' ', ' ', ' ', ' ', '|'],
  ['|', ' ', '[', 'x', '8', '6', '_', '6', '4', '-', 'w', 'r', 's', '-', 'v', 'x', 'w', 'o', 'r', 'k', 's', ']', ' ', ' ', ' ', ' ', ' ', ' ', ' ', ' ', ' ', ' ', ' ', ' ', ' ', ' ', ' ', ' ', ' ', ' ', ' ', '|', ' ', 'x', '8', '6', '_', '6', '4', ' ', ' ', ' ', ' ', ' ', ' ', '|', ' ', 'v', 'x', 'w', 'o', 'r', 'k', 's', ' ', ' ', ' ', ' ', '|', ' ', 'g', 'n', 'u', ' ', ' ', ' ', ' ', ' ', ' ', ' ', ' ', '|'],
  ['|', ' ', '[', 'x', '8', '6', '_', '6', '4', 'h', '-', 'a', 'p', 'p', 'l', 'e', '-', 'd', 'a', 'r', 'w', 'i', 'n', ']', ' ', ' ', ' ', ' ', ' ', ' ', ' ', ' ', ' ', ' ', ' ', ' ', ' ', ' ', ' ', ' ', ' ', '|', ' ', 'x', '8', '6', '_', '6', '4', ' ', ' ', ' ', ' ', ' ', ' ', '|', ' ', 'm', 'a', 'c', 'o', 's', ' ', ' ', ' ', ' ', ' ', ' ', '|', ' ', ' ', ' ', ' ', ' ', ' ', ' ', ' ', ' ', ' ', ' ', ' ', '|'],
  ['|', ' ', '[', 'x', 't', 'e', 'n', 's', 'a', '-', 'e', 's', 'p', '3', '2', '-', 'e', 's', 'p', 'i', 'd', 'f', ']', ' ', ' ', ' ', ' ', ' ', ' ', ' ', ' ', ' ', ' ', ' ', ' ', ' ', ' ', ' ', ' ', ' ', ' ', '|', ' ', 'x', 't', 'e', 'n', 's', 'a', ' ', ' ', ' ', ' ', ' ', ' ', '|', ' ', 'e', 's', 'p', 'i', 'd', 'f', ' ', ' ', ' ', ' ', ' ', '|', ' ', 'n', 'e', 'w', 'l', 'i', 'b', ' ', ' ', ' ', ' ', ' ', '|'],
  ['|', ' ', '[', 'x', 't', 'e', 'n', 's', 'a', '-', 'e', 's', 'p', '3', '2', '-', 'n', 'o', 'n', 'e', '-', 'e', 'l', 'f', ']', ' ', ' ', ' ', ' ', ' ', ' ', ' ', ' ', ' ', ' ', ' ', ' ', ' ', ' ', ' ', ' ', '|', ' ', 'x', 't', 'e', 'n', 's', 'a', ' ', ' ', ' ', ' ', ' ', ' ', '|', ' ', 'n', 'o', 'n', 'e', ' ', ' ', ' ', ' ', ' ', ' ', ' ', '|', ' ', ' ', ' ', ' ', ' ', ' ', ' ', ' ', ' ', ' ', ' ', ' ', '|'],
  ['|', ' ', '[', 'x', 't', 'e', 'n', 's', 'a', '-', 'e', 's', 'p', '3', '2', 's', '2', '-', 'e', 's', 'p', 'i', 'd', 'f', ']', ' ', ' ', ' ', ' ', ' ', ' ', ' ', ' ', ' ', ' ', ' ', ' ', ' ', ' ', ' ', ' ', '|', ' ', 'x', 't', 'e', 'n', 's', 'a', ' ', ' ', ' ', ' ', ' ', ' ', '|', ' ', 'e', 's', 'p', 'i', 'd', 'f', ' ', ' ', ' ', ' ', ' ', '|', ' ', 'n', 'e', 'w', 'l', 'i', 'b', ' ', ' ', ' ', ' ', ' ', '|'],
  ['|', ' ', '[', 'x', 't', 'e', 'n', 's', 'a', '-', 'e', 's', 'p', '3', '2', 's', '2', '-', 'n', 'o', 'n', 'e', '-', 'e', 'l', 'f', ']', ' ', ' ', ' ', ' ', ' ', ' ', ' ', ' ', ' ', ' ', ' ', ' ', ' ', ' ', '|', ' ', 'x', 't', 'e', 'n', 's', 'a', ' ', ' ', ' ', ' ', ' ', ' ', '|', ' ', 'n', 'o', 'n', 'e', ' ', ' ', ' ', ' ', ' ', ' ', ' ', '|', ' ', ' ', ' ', ' ', ' ', ' ', ' ', ' ', ' ', ' ', ' ', ' ', '|'],
  ['|', ' ', '[', 'x', 't', 'e', 'n', 's', 'a', '-', 'e', 's', 'p', '3', '2', 's', '3', '-', 'e', 's', 'p', 'i', 'd', 'f', ']', ' ', ' ', ' ', ' ', ' ', ' ', ' ', ' ', ' ', ' ', ' ', ' ', ' ', ' ', ' ', ' ', '|', ' ', 'x', 't', 'e', 'n', 's', 'a', ' ', ' ', ' ', ' ', ' ', ' ', '|', ' ', 'e', 's', 'p', 'i', 'd', 'f', ' ', ' ', ' ', ' ', ' ', '|', ' ', 'n', 'e', 'w', 'l', 'i', 'b', ' ', ' ', ' ', ' ', ' ', '|'],
  ['|', ' ', '[', 'x', 't', 'e', 'n', 's', 'a', '-', 'e', 's', 'p', '3', '2', 's', '3', '-', 'n', 'o', 'n', 'e', '-', 'e', 'l', 'f', ']', ' ', ' ', ' ', ' ', ' ', ' ', ' ', ' ', ' ', ' ', ' ', ' ', ' ', ' ', '|', ' ', 'x', 't', 'e', 'n', 's', 'a', ' ', ' ', ' ', ' ', ' ', ' ', '|', ' ', 'n', 'o', 'n', 'e', ' ', ' ', ' ', ' ', ' ', ' ', ' ', '|', ' ', ' ', ' ', ' ', ' ', ' ', ' ', ' ', ' ', ' ', ' ', ' ', '|'],
  [],
  ['[', 'a', 'a', 'r', 'c', 'h', '6', '4', '-', 'a', 'p', 'p', 'l', 'e', '-', 'd', 'a', 'r', 'w', 'i', 'n', ']', ':', ' ', 'h', 't', 't', 'p', 's', ':', '/', '/', 'd', 'o', 'c', 's', '.', 'r', 's', '/', 'p', 'l', 'a', 't', 'f', 'o', 'r', 'm', 's', '/', 'l', 'a', 't', 'e', 's', 't', '/', 'p', 'l', 'a', 't', 'f', 'o', 'r', 'm', 's', '/', 'p', 'l', 'a', 't', 'f', 'o', 'r', 'm', '/', 'c', 'o', 'n', 's', 't', 'a', 'n', 't', '.', 'A', 'A', 'R', 'C', 'H', '6', '4', '_', 'A', 'P', 'P', 'L', 'E', '_', 'D', 'A', 'R', 'W', 'I', 'N', '.', 'h', 't', 'm', 'l'],
  ['[', 'a', 'a', 'r', 'c', 'h', '6', '4', '-', 'a', 'p', 'p', 'l', 'e', '-', 'i', 'o', 's', ']', ':', ' ', 'h', 't', 't', 'p', 's', ':', '/', '/', 'd', 'o', 'c', 's', '.', 'r', 's', '/', 'p', 'l', 'a', 't', 'f', 'o', 'r', 'm', 's', '/', 'l', 'a', 't', 'e', 's', 't', '/', 'p', 'l', 'a', 't', 'f', 'o', 'r', 'm', 's', '/', 'p', 'l', 'a', 't', 'f', 'o', 'r', 'm', '/', 'c', 'o', 'n', 's', 't', 'a', 'n', 't', '.', 'A', 'A', 'R', 'C', 'H', '6', '4', '_', 'A', 'P', 'P', 'L', 'E', '_', 'I', 'O', 'S', '.', 'h', 't', 'm', 'l'],
  ['[', 'a', 'a', 'r', 'c', 'h', '6', '4', '-', 'a', 'p', 'p', 'l', 'e', '-', 'i', 'o', 's', '-', 'm', 'a', 'c', 'a', 'b', 'i', ']', ':', ' ', 'h', 't', 't', 'p', 's', ':', '/', '/', 'd', 'o', 'c', 's', '.', 'r', 's', '/', 'p', 'l', 'a', 't', 'f', 'o', 'r', 'm', 's', '/', 'l', 'a', 't', 'e', 's', 't', '/', 'p', 'l', 'a', 't', 'f', 'o', 'r', 'm', 's', '/', 'p', 'l', 'a', 't', 'f', 'o', 'r', 'm', '/', 'c', 'o', 'n', 's', 't', 'a', 'n', 't', '.', 'A', 'A', 'R', 'C', 'H', '6', '4', '_', 'A', 'P', 'P', 'L', 'E', '_', 'I', 'O', 'S', '_', 'M', 'A', 'C', 'A', 'B', 'I', '.', 'h', 't', 'm', 'l'],
  ['[', 'a', 'a', 'r', 'c', 'h', '6', '4', '-', 'a', 'p', 'p', 'l', 'e', '-', 'i', 'o', 's', '-', 's', 'i', 'm', ']', ':', ' ', 'h', 't', 't', 'p', 's', ':', '/', '/', 'd', 'o', 'c', 's', '.', 'r', 's', '/', 'p', 'l', 'a', 't', 'f', 'o', 'r', 'm', 's', '/', 'l', 'a', 't', 'e', 's', 't', '/', 'p', 'l', 'a', 't', 'f', 'o', 'r', 'm', 's', '/', 'p', 'l', 'a', 't', 'f', 'o', 'r', 'm', '/', 'c', 'o', 'n', 's', 't', 'a', 'n', 't', '.', 'A', 'A', 'R', 'C', 'H', '6', '4', '_', 'A', 'P', 'P', 'L', 'E', '_', 'I', 'O', 'S', '_', 'S', 'I', 'M', '.', 'h', 't', 'm', 'l']]

/-- `platforms/README.md:413-437`. -/
def readme14 : List Str := [
  ['[', 'a', 'a', 'r', 'c', 'h', '6', '4', '-', 'a', 'p', 'p', 'l', 'e', '-', 't', 'v', 'o', 's', ']', ':', ' ', 'h', 't', 't', 'p', 's', ':', '/', '/', 'd', 'o', 'c', 's', '.', 'r', 's', '/', 'p', 'l', 'a', 't', 'f', 'o', 'r', 'm', 's', '/', 'l', 'a', 't', 'e', 's', 't', '/', 'p', 'l', 'a', 't', 'f', 'o', 'r', 'm', 's', '/', 'p', 'l', 'a', 't', 'f', 'o', 'r', 'm', '/', 'c', 'o', 'n', 's', 't', 'a', 'n', 't', '.', 'A', 'A', 'R', 'C', 'H', '6', '4', '_', 'A', 'P', 'P', 'L', 'E', '_', 'T', 'V', 'O', 'S', '.', 'h', 't', 'm', 'l'],
  ['[', 'a', 'a', 'r', 'c', 'h', '6', '4', '-', 'a', 'p', 'p', 'l', 'e', '-', 't', 'v', 'o', 's', '-', 's', 'i', 'm', ']', ':', ' ', 'h', 't', 't', 'p', 's', ':', '/', '/', 'd', 'o', 'c', 's', '.', 'r', 's', '/', 'p', 'l', 'a', 't', 'f', 'o', 'r', 'm', 's', '/', 'l', 'a', 't', 'e', 's', 't', '/', 'p', 'l', 'a', 't', 'f', 'o', 'r', 'm', 's', '/', 'p', 'l', 'a', 't', 'f', 'o', 'r', 'm', '/', 'c', 'o', 'n', 's', 't', 'a', 'n', 't', '.', 'A', 'A', 'R', 'C', 'H', '6', '4', '_', 'A', 'P', 'P', 'L', 'E', '_', 'T', 'V', 'O', 'S', '_', 'S', 'I', 'M', '.', 'h', 't', 'm', 'l'],
  ['[', 'a', 'a', 'r', 'c', 'h', '6', '4', '-', 'a', 'p', 'p', 'l', 'e', '-', 'v', 'i', 's', 'i', 'o', 'n', 'o', 's', ']', ':', ' ', 'h', 't', 't', 'p', 's', ':', '/', '/', 'd', 'o', 'c', 's', '.', 'r', 's', '/', 'p', 'l', 'a', 't', 'f', 'o', 'r', 'm', 's', '/', 'l', 'a', 't', 'e', 's', 't', '/', 'p', 'l', 'a', 't', 'f', 'o', 'r', 'm', 's', '/', 'p', 'l', 'a', 't', 'f', 'o', 'r', 'm', '/', 'c', 'o', 'n', 's', 't', 'a', 'n', 't', '.', 'A', 'A', 'R', 'C', 'H', '6', '4', '_', 'A', 'P', 'P', 'L', 'E', '_', 'V', 'I', 'S', 'I', 'O', 'N', 'O', 'S', '.', 'h', 't', 'm', 'l'],
  ['[', 'a', 'a', 'r', 'c', 'h', '6', '4', '-', 'a', 'p', 'p', 'l', 'e', '-', 'v', 'i', 's', 'i', 'o', 'n', 'o', 's', '-', 's', 'i', 'm', ']', ':', ' ', 'h', 't', 't', 'p', 's', ':', '/', '/', 'd', 'o', 'c', 's', '.', 'r', 's', '/', 'p', 'l', 'a', 't', 'f', 'o', 'r', 'm', 's', '/', 'l', 'a', 't', 'e', 's', 't', '/', 'p', 'l', 'a', 't', 'f', 'o', 'r', 'm', 's', '/', 'p', 'l', 'a', 't', 'f', 'o', 'r', 'm', '/', 'c', 'o', 'n', 's', 't', 'a', 'n', 't', '.', 'A', 'A', 'R', 'C', 'H', '6', '4', '_', 'A', 'P', 'P', 'L', 'E', '_', 'V', 'I', 'S', 'I', 'O', 'N', 'O', 'S', '_', 'S', 'I', 'M', '.', 'h', 't', 'm', 'l'],
  ['[', 'a', 'a', 'r', 'c', 'h', '6', '4', '-', 'a', 'p', 'p', 'l', 'e', '-', 'w', 'a', 't', 'c', 'h', 'o', 's', ']', ':', ' ', 'h', 't', 't', 'p', 's', ':', '/', '/', 'd', 'o', 'c', 's', '.', 'r', 's', '/', 'p', 'l', 'a', 't', 'f', 'o', 'r', 'm', 's', '/', 'l', 'a', 't', 'e', 's', 't', '/', 'p', 'l', 'a', 't', 'f', 'o', 'r', 'm', 's', '/', 'p', 'l', 'a', 't', 'f', 'o', 'r', 'm', '/', 'c', 'o', 'n', 's', 't', 'a', 'n', 't', '.', 'A', 'A', 'R', 'C', 'H', '6', '4', '_', 'A', 'P', 'P', 'L', 'E', '_', 'W', 'A', 'T', 'C', 'H', 'O', 'S', '.', 'h', 't', 'm', 'l'],
  ['[', 'a', 'a', 'r', 'c', 'h', '6', '4', '-', 'a', 'p', 'p', 'l', 'e', '-', 'w', 'a', 't', 'c', 'h', 'o', 's', '-', 's', 'i', 'm', ']', ':', ' ', 'h', 't', 't', 'p', 's', ':', '/', '/', 'd', 'o', 'c', 's', '.', 'r', 's', '/', 'p', 'l', 'a', 't', 'f', 'o', 'r', 'm', 's', '/', 'l', 'a', 't', 'e', 's', 't', '/', 'p', 'l', 'a', 't', 'f', 'o', 'r', 'm', 's', '/', 'p', 'l', 'a', 't', 'f', 'o', 'r', 'm', '/', 'c', 'o', 'n', 's', 't', 'a', 'n', 't', '.', 'A', 'A', 'R', 'C', 'H', '6', '4', '_', 'A', 'P', 'P', 'L', 'E', '_', 'W', 'A', 'T', 'C', 'H', 'O', 'S', '_', 'S', 'I', 'M', '.', 'h', 't', 'm', 'l'],
  ['[', 'a', 'a', 'r', 'c', 'h', '6', '4', '-', 'k', 'm', 'c', '-', 's', 'o', 'l', 'i', 'd', '_', 'a', 's', 'p', '3', ']', ':', ' ', 'h', 't', 't', 'p', 's', ':', '/', '/', 'd', 'o', 'c', 's', '.', 'r', 's', '/', 'p', 'l', 'a', 't', 'f', 'o', 'r', 'm', 's', '/', 'l', 'a', 't', 'e', 's', 't', '/', 'p', 'l', 'a', 't', 'f', 'o', 'r', 'm', 's', '/', 'p', 'l', 'a', 't', 'f', 'o', 'r', 'm', '/', 'c', 'o', 'n', 's', 't', 'a', 'n', 't', '.', 'A', 'A', 'R', 'C', 'H', '6', '4', '_', 'K', 'M', 'C', '_', 'S', 'O', 'L', 'I', 'D', '_', 'A', 'S', 'P', '3', '.', 'h', 't', 'm', 'l'],
  ['[', 'a', 'a', 'r', 'c', 'h', '6', '4', '-', 'l', 'i', 'n', 'u', 'x', '-', 'a', 'n', 'd', 'r', 'o', 'i', 'd', ']', ':', ' ', 'h', 't', 't', 'p', 's', ':', '/', '/', 'd', 'o', 'c', 's', '.', 'r', 's', '/', 'p', 'l', 'a', 't', 'f', 'o', 'r', 'm', 's', '/', 'l', 'a', 't', 'e', 's', 't', '/', 'p', 'l', 'a', 't', 'f', 'o', 'r', 'm', 's', '/', 'p', 'l', 'a', 't', 'f', 'o', 'r', 'm', '/', 'c', 'o', 'n', 's', 't', 'a', 'n', 't', '.', 'A', 'A', 'R', 'C', 'H', '6', '4', '_', 'L', 'I', 'N', 'U', 'X', '_', 'A', 'N', 'D', 'R', 'O', 'I', 'D', '.', 'h', 't', 'm', 'l'],
  ['[', 'a', 'a', 'r', 'c', 'h', '6', '4', '-', 'n', 'i', 'n', 't', 'e', 'n', 'd', 'o', '-', 's', 'w', 'i', 't', 'c', 'h', '-', 'f', 'r', 'e', 'e', 's', 't', 'a', 'n', 'd', 'i', 'n', 'g', ']', ':', ' ', 'h', 't', 't', 'p', 's', ':', '/', '/', 'd', 'o', 'c', 's', '.', 'r', 's', '/', 'p', 'l', 'a', 't', 'f', 'o', 'r', 'm', 's', '/', 'l', 'a', 't', 'e', 's', 't', '/', 'p', 'l', 'a', 't', 'f', 'o', 'r', 'm', 's', '/', 'p', 'l', 'a', 't', 'f', 'o', 'r', 'm', '/', 'c', 'o', 'n', 's', 't', 'a', 'n', 't', '.', 'A', 'A', 'R', 'C', 'H', '6', '4', '_', 'N', 'I', 'N', 'T', 'E', 'N', 'D', 'O', '_', 'S', 'W', 'I', 'T', 'C', 'H', '_', 'F', 'R', 'E', 'E', 'S', 'T', 'A', 'N', 'D', 'I', 'N', 'G', '.', 'h', 't', 'm', 'l'],
  ['[', 'a', 'a', 'r', 'c', 'h', '6', '4', '-', 'o', 'e', '-', 'l', 'i', 'n', 'u', 'x', '-', 'g', 'n', 'u', ']', ':', ' ', 'h', 't', 't', 'p', 's', ':', '/', '/', 'd', 'o', 'c', 's', '.', 'r', 's', '/', 'p', 'l', 'a', 't', 'f', 'o', 'r', 'm', 's', '/', 'l', 'a', 't', 'e', 's', 't', '/', 'p', 'l', 'a', 't', 'f', 'o', 'r', 'm', 's', '/', 'p', 'l', 'a', 't', 'f', 'o', 'r', 'm', '/', 'c', 'o', 'n', 's', 't', 'a', 'n', 't', '.', 'A', 'A', 'R', 'C', 'H', '6', '4', '_', 'O', 'E', '_', 'L', 'I', 'N', 'U', 'X', '_', 'G', 'N', 'U', '.', 'h', 't', 'm', 'l'],
  ['[', 'a', 'a', 'r', 'c', 'h', '6', '4', '-', 'p', 'c', '-', 'w', 'i', 'n', 'd', 'o', 'w', 's', '-', 'g', 'n', 'u', 'l', 'l', 'v', 'm', ']', ':', ' ', 'h', 't', 't', 'p', 's', ':', '/', '/', 'd', 'o', 'c', 's', '.', 'r', 's', '/', 'p', 'l', 'a', 't', 'f', 'o', 'r', 'm', 's', '/', 'l', 'a', 't', 'e', 's', 't', '/', 'p', 'l', 'a', 't', 'f', 'o', 'r', 'm', 's', '/', 'p', 'l', 'a', 't', 'f', 'o', 'r', 'm', '/', 'c', 'o', 'n', 's', 't', 'a', 'n', 't', '.', 'A', 'A', 'R', 'C', 'H', '6', '4', '_', 'P', 'C', '_', 'W', 'I', 'N', 'D', 'O', 'W', 'S', '_', 'G', 'N', 'U', 'L', 'L', 'V', 'M', '.', 'h', 't', 'm', 'l'],
  ['[', 'a', 'a', 'r', 'c', 'h', '6', '4', '-', 'p', 'c', '-', 'w', 'i', 'n', 'd', 'o', 'w', 's', '-', 'm', 's', 'v', 'c', ']', ':', ' ', 'h', 't', 't', 'p', 's', ':', '/', '/', 'd', 'o', 'c', 's', '.', 'r', 's', '/', 'p', 'l', 'a', 't', 'f', 'o', 'r', 'm', 's', '/', 'l', 'a', 't', 'e', 's', 't', '/', 'p', 'l', 'a', 't', 'f', 'o', 'r', 'm', 's', '/', 'p', 'l', 'a', 't', 'f', 'o', 'r', 'm', '/', 'c', 'o', 'n', 's', 't', 'a', 'n', 't', '.', 'A', 'A', 'R', 'C', 'H', '6', '4', '_', 'P', 'C', '_', 'W', 'I', 'N', 'D', 'O', 'W', 'S', '_', 'M', 'S', 'V', 'C', '.', 'h', 't', 'm', 'l'],
  ['[', 'a', 'a', 'r', 'c', 'h', '6', '4', '-', 'u', 'n', 'k', 'n', 'o', 'w', 'n', '-', 'f', 'r', 'e', 'e', 'b', 's', 'd', ']', ':', ' ', 'h', 't', 't', 'p', 's', ':', '/', '/', 'd', 'o', 'c', 's', '.', 'r', 's', '/', 'p', 'l', 'a', 't', 'f', 'o', 'r', 'm', 's', '/', 'l', 'a', 't', 'e', 's', 't', '/', 'p', 'l', 'a', 't', 'f', 'o', 'r', 'm', 's', '/', 'p', 'l', 'a', 't', 'f', 'o', 'r', 'm', '/', 'c', 'o', 'n', 's', 't', 'a', 'n', 't', '.', 'A', 'A', 'R', 'C', 'H', '6', '4', '_', 'U', 'N', 'K', 'N', 'O', 'W', 'N', '_', 'F', 'R', 'E', 'E', 'B', 'S', 'D', '.', 'h', 't', 'm', 'l'],
  ['[', 'a', 'a', 'r', 'c', 'h', '6', '4', '-', 'u', 'n', 'k', 'n', 'o', 'w', 'n', '-', 'f', 'u', 'c', 'h', 's', 'i', 'a', ']', ':', ' ', 'h', 't', 't', 'p', 's', ':', '/', '/', 'd', 'o', 'c', 's', '.', 'r', 's', '/', 'p', 'l', 'a', 't', 'f', 'o', 'r', 'm', 's', '/', 'l', 'a', 't', 'e', 's', 't', '/', 'p', 'l', 'a', 't', 'f', 'o', 'r', 'm', 's', '/', 'p', 'l', 'a', 't', 'f', 'o', 'r', 'm', '/', 'c', 'o', 'n', 's', 't', 'a', 'n', 't', '.', 'A', 'A', 'R', 'C', 'H', '6', '4', '_', 'U', 'N', 'K', 'N', 'O', 'W', 'N', '_', 'F', 'U', 'C', 'H', 'S', 'I', 'A', '.', 'h', 't', 'm', 'l'],
  ['[', 'a', 'a', 'r', 'c', 'h', '6', '4', '-', 'u', 'n', 'k', 'n', 'o', 'w', 'n', '-', 'h', 'e', 'l', 'e', 'n', 'o', 's', ']', ':', ' ', 'h', 't', 't', 'p', 's', ':', '/', '/', 'd', 'o', 'c', 's', '.', 'r', 's', '/', 'p', 'l', 'a', 't', 'f', 'o', 'r', 'm', 's', '/', 'l', 'a', 't', 'e', 's', 't', '/', 'p', 'l', 'a', 't', 'f', 'o', 'r', 'm', 's', '/', 'p', 'l', 'a', 't', 'f', 'o', 'r', 'm', '/', 'c', 'o', 'n', 's', 't', 'a', 'n', 't', '.', 'A', 'A', 'R', 'C', 'H', '6', '4', '_', 'U', 'N', 'K', 'N', 'O', 'W', 'N', '_', 'H', 'E', 'L', 'E', 'N', 'O', 'S', '.', 'h', 't', 'm', 'l'],
  ['[', 'a', 'a', 'r', 'c', 'h', '6', '4', '-', 'u', 'n', 'k', 'n', 'o', 'w', 'n', '-', 'h', 'e', 'r', 'm', 'i', 't', ']', ':', ' ', 'h', 't', 't', 'p', 's', ':', '/', '/', 'd', 'o', 'c', 's', '.', 'r', 's', '/', 'p', 'l', 'a', 't', 'f', 'o', 'r', 'm', 's', '/', 'l', 'a', 't', 'e', 's', 't', '/', 'p', 'l', 'a', 't', 'f', 'o', 'r', 'm', 's', '/', 'p', 'l', 'a', 't', 'f', 'o', 'r', 'm', '/', 'c', 'o', 'n', 's', 't', 'a', 'n', 't', '.', 'A', 'A', 'R', 'C', 'H', '6', '4', '_', 'U', 'N', 'K', 'N', 'O', 'W', 'N', '_', 'H', 'E', 'R', 'M', 'I', 'T', '.', 'h', 't', 'm', 'l'],
  ['[', 'a', 'a', 'r', 'c', 'h', '6', '4', '-', 'u', 'n', 'k', 'n', 'o', 'w', 'n', '-', 'i', 'l', 'l', 'u', 'm', 'o', 's', ']', ':', ' ', 'h', 't', 't', 'p', 's', ':', '/', '/', 'd', 'o', 'c', 's', '.', 'r', 's', '/', 'p', 'l', 'a', 't', 'f', 'o', 'r', 'm', 's', '/', 'l', 'a', 't', 'e', 's', 't', '/', 'p', 'l', 'a', 't', 'f', 'o', 'r', 'm', 's', '/', 'p', 'l', 'a', 't', 'f', 'o', 'r', 'm', '/', 'c', 'o', 'n', 's', 't', 'a', 'n', 't', '.', 'A', 'A', 'R', 'C', 'H', '6', '4', '_', 'U', 'N', 'K', 'N', 'O', 'W', 'N', '_', 'I', 'L', 'L', 'U', 'M', 'O', 'S', '.', 'h', 't', 'm', 'l'],
  ['[', 'a', 'a', 'r', 'c', 'h', '6', '4', '-', 'u', 'n', 'k', 'n', 'o', 'w', 'n', '-', 'l', '4', 'r', 'e', '-', 'u', 'c', 'l', 'i', 'b', 'c', ']', ':', ' ', 'h', 't', 't', 'p', 's', ':', '/', '/', 'd', 'o', 'c', 's', '.', 'r', 's', '/', 'p', 'l', 'a', 't', 'f', 'o', 'r', 'm', 's', '/', 'l', 'a', 't', 'e', 's', 't', '/', 'p', 'l', 'a', 't', 'f', 'o', 'r', 'm', 's', '/', 'p', 'l', 'a', 't', 'f', 'o', 'r', 'm', '/', 'c', 'o', 'n', 's', 't', 'a', 'n', 't', '.', 'A', 'A', 'R', 'C', 'H', '6', '4', '_', 'U', 'N', 'K', 'N', 'O', 'W', 'N', '_', 'L', '4', 'R', 'E', '_', 'U', 'C', 'L', 'I', 'B', 'C', '.', 'h', 't', 'm', 'l'],
  ['[', 'a', 'a', 'r', 'c', 'h', '6', '4', '-', 'u', 'n', 'k', 'n', 'o', 'w', 'n', '-', 'l', 'i', 'n', 'u', 'x', '-', 'g', 'n', 'u', ']', ':', ' ', 'h', 't', 't', 'p', 's', ':', '/', '/', 'd', 'o', 'c', 's', '.', 'r', 's', '/', 'p', 'l', 'a', 't', 'f', 'o', 'r', 'm', 's', '/', 'l', 'a', 't', 'e', 's', 't', '/', 'p', 'l', 'a', 't', 'f', 'o', 'r', 'm', 's', '/', 'p', 'l', 'a', 't', 'f', 'o', 'r', 'm', '/', 'c', 'o', 'n', 's', 't', 'a', 'n', 't', '.', 'A', 'A', 'R', 'C', 'H', '6', '4', '_', 'U', 'N', 'K', 'N', 'O', 'W', 'N', '_', 'L', 'I', 'N', 'U', 'X', '_', 'G', 'N', 'U', '.', 'h', 't', 'm', 'l'],
  ['[', 'a', 'a', 'r', 'c', 'h', '6', '4', '-', 'u', 'n', 'k', 'n', 'o', 'w', 'n', '-', 'l', 'i', 'n', 'u', 'x', '-', 'g', 'n', 'u', '_', 'i', 'l', 'p', '3', '2', ']', ':', ' ', 'h', 't', 't', 'p', 's', ':', '/', '/', 'd', 'o', 'c', 's', '.', 'r', 's', '/', 'p', 'l', 'a', 't', 'f', 'o', 'r', 'm', 's', '/', 'l', 'a', 't', 'e', 's', 't', '/', 'p', 'l', 'a', 't', 'f', 'o', 'r', 'm', 's', '/', 'p', 'l', 'a', 't', 'f', 'o', 'r', 'm', '/', 'c', 'o', 'n', 's', 't', 'a', 'n', 't', '.', 'A', 'A', 'R', 'C', 'H', '6', '4', '_', 'U', 'N', 'K', 'N', 'O', 'W', 'N', '_', 'L', 'I', 'N', 'U', 'X', '_', 'G', 'N', 'U', '_', 'I', 'L', 'P', '3', '2', '.', 'h', 't', 'm', 'l'],
  ['[', 'a', 'a', 'r', 'c', 'h', '6', '4', '-', 'u', 'n', 'k', 'n', 'o', 'w', 'n', '-', 'l', 'i', 'n', 'u', 'x', '-', 'm', 'u', 's', 'l', ']', ':', ' ', 'h', 't', 't', 'p', 's', ':', '/', '/', 'd', 'o', 'c', 's', '.', 'r', 's', '/', 'p', 'l', 'a', 't', 'f', 'o', 'r', 'm', 's', '/', 'l', 'a', 't', 'e', 's', 't', '/', 'p', 'l', 'a', 't', 'f', 'o', 'r', 'm', 's', '/', 'p', 'l', 'a', 't', 'f', 'o', 'r', 'm', '/', 'c', 'o', 'n', 's', 't', 'a', 'n', 't', '.', 'A', 'A', 'R', 'C', 'H', '6', '4', '_', 'U', 'N', 'K', 'N', 'O', 'W', 'N', '_', 'L', 'I', 'N', 'U', 'X', '_', 'M', 'U', 'S', 'L', '.', 'h', 't', 'm', 'l'],
  ['[', 'a', 'a', 'r', 'c', 'h', '6', '4', '-', 'u', 'n', 'k', 'n', 'o', 'w', 'n', '-', 'l', 'i', 'n', 'u', 'x', '-', 'o', 'h', 'o', 's', ']', ':', ' ', 'h', 't', 't', 'p', 's', ':', '/', '/', 'd', 'o', 'c', 's', '.', 'r', 's', '/', 'p', 'l', 'a', 't', 'f', 'o', 'r', 'm', 's', '/', 'l', 'a', 't', 'e', 's', 't', '/', 'p', 'l', 'a', 't', 'f', 'o', 'r', 'm', 's', '/', 'p', 'l', 'a', 't', 'f', 'o', 'r', 'm', '/', 'c', 'o', 'n', 's', 't', 'a', 'n', 't', '.', 'A', 'A', 'R', 'C', 'H', '6', '4', '_', 'U', 'N', 'K', 'N', 'O', 'W', 'N', '_', 'L', 'I', 'N', 'U', 'X', '_', 'O', 'H', 'O', 'S', '.', 'h', 't', 'm', 'l'],
  ['[', 'a', 'a', 'r', 'c', 'h', '6', '4', '-', 'u', 'n', 'k', 'n', 'o', 'w', 'n', '-', 'l', 'i', 'n', 'u', 'x', '-', 'p', 'a', 'u', 't', 'h', 't', 'e', 's', 't', ']', ':', ' ', 'h', 't', 't', 'p', 's', ':', '/', '/', 'd', 'o', 'c', 's', '.', 'r', 's', '/', 'p', 'l', 'a', 't', 'f', 'o', 'r', 'm', 's', '/', 'l', 'a', 't', 'e', 's', 't', '/', 'p', 'l', 'a', 't', 'f', 'o', 'r', 'm', 's', '/', 'p', 'l', 'a', 't', 'f', 'o', 'r', 'm', '/', 'c', 'o', 'n', 's', 't', 'a', 'n', 't', '.', 'A', 'A', 'R', 'C', 'H', '6', '4', '_', 'U', 'N', 'K', 'N', 'O', 'W', 'N', '_', 'L', 'I', 'N', 'U', 'X', '_', 'P', 'A', 'U', 'T', 'H', 'T', 'E', 'S', 'T', '.', 'h', 't', 'm', 'l'],
  ['[', 'a', 'a', 'r', 'c', 'h', '6', '4', '-', 'u', 'n', 'k', 'n', 'o', 'w', 'n', '-', 'm', 'a', 'n', 'a', 'g', 'a', 'r', 'm', '-', 'm', 'l', 'i', 'b', 'c', ']', ':', ' ', 'h', 't', 't', 'p', 's', ':', '/', '/', 'd', 'o', 'c', 's', '.', 'r', 's', '/', 'p', 'l', 'a', 't', 'f', 'o', 'r', 'm', 's', '/', 'l', 'a', 't', 'e', 's', 't', '/', 'p', 'l', 'a', 't', 'f', 'o', 'r', 'm', 's', '/', 'p', 'l', 'a', 't', 'f', 'o', 'r', 'm', '/', 'c', 'o', 'n', 's', 't', 'a', 'n', 't', '.', 'A', 'A', 'R', 'C', 'H', '6', '4', '_', 'U', 'N', 'K', 'N', 'O', 'W', 'N', '_', 'M', 'A', 'N', 'A', 'G', 'A', 'R', 'M', '_', 'M', 'L', 'I', 'B', 'C', '.', 'h', 't', 'm', 'l'],
  ['[', 'a', 'a', 'r', 'c', 'h', '6', '4', '-', 'u', 'n', 'k', 'n', 'o', 'w', 'n', '-', 'n', 'e', 't', 'b', 's', 'd', ']', ':', ' ', 'h', 't', 't', 'p', 's', ':', '/', '/', 'd', 'o', 'c', 's', '.', 'r', 's', '/', 'p', 'l', 'a', 't', 'f', 'o', 'r', 'm', 's', '/', 'l', 'a', 't', 'e', 's', 't', '/', 'p', 'l', 'a', 't', 'f', 'o', 'r', 'm', 's', '/', 'p', 'l', 'a', 't', 'f', 'o', 'r', 'm', '/', 'c', 'o', 'n', 's', 't', 'a', 'n', 't', '.', 'A', 'A', 'R', 'C', 'H', '6', '4', '_', 'U', 'N', 'K', 'N', 'O', 'W', 'N', '_', 'N', 'E', 'T', 'B', 'S', 'D', '.', 'h', 't', 'm', 'l']]

/-- `platforms/README.md:438-462`. -/
def readme15 : List Str := [
  ['[', 'a', 'a', 'r', 'c', 'h', '6', '4', '-', 'u', 'n', 'k', 'n', 'o', 'w', 'n', '-', 'n', 'o', 'n', 'e', ']', ':', ' ', 'h', 't', 't', 'p', 's', ':', '/', '/', 'd', 'o', 'c', 's', '.', 'r', 's', '/', 'p', 'l', 'a', 't', 'f', 'o', 'r', 'm', 's', '/', 'l', 'a', 't', 'e', 's', 't', '/', 'p', 'l', 'a', 't', 'f', 'o', 'r', 'm', 's', '/', 'p', 'l', 'a', 't', 'f', 'o', 'r', 'm', '/', 'c', 'o', 'n', 's', 't', 'a', 'n', 't', '.', 'A', 'A', 'R', 'C', 'H', '6', '4', '_', 'U', 'N', 'K', 'N', 'O', 'W', 'N', '_', 'N', 'O', 'N', 'E', '.', 'h', 't', 'm', 'l'],
  ['[', 'a', 'a', 'r', 'c', 'h', '6', '4', '-', 'u', 'n', 'k', 'n', 'o', 'w', 'n', '-', 'n', 'o', 'n', 'e', '-', 's', 'o', 'f', 't', 'f', 'l', 'o', 'a', 't', ']', ':', ' ', 'h', 't', 't', 'p', 's', ':', '/', '/', 'd', 'o', 'c', 's', '.', 'r', 's', '/', 'p', 'l', 'a', 't', 'f', 'o', 'r', 'm', 's', '/', 'l', 'a', 't', 'e', 's', 't', '/', 'p', 'l', 'a', 't', 'f', 'o', 'r', 'm', 's', '/', 'p', 'l', 'a', 't', 'f', 'o', 'r', 'm', '/', 'c', 'o', 'n', 's', 't', 'a', 'n', 't', '.', 'A', 'A', 'R', 'C', 'H', '6', '4', '_', 'U', 'N', 'K', 'N', 'O', 'W', 'N', '_', 'N', 'O', 'N', 'E', '_', 'S', 'O', 'F', 'T', 'F', 'L', 'O', 'A', 'T', '.', 'h', 't', 'm', 'l'],
  ['[', 'a', 'a', 'r', 'c', 'h', '6', '4', '-', 'u', 'n', 'k', 'n', 'o', 'w', 'n', '-', 'n', 't', 'o', '-', 'q', 'n', 'x', '7', '0', '0', ']', ':', ' ', 'h', 't', 't', 'p', 's', ':', '/', '/', 'd', 'o', 'c', 's', '.', 'r', 's', '/', 'p', 'l', 'a', 't', 'f', 'o', 'r', 'm', 's', '/', 'l', 'a', 't', 'e', 's', 't', '/', 'p', 'l', 'a', 't', 'f', 'o', 'r', 'm', 's', '/', 'p', 'l', 'a', 't', 'f', 'o', 'r', 'm', '/', 'c', 'o', 'n', 's', 't', 'a', 'n', 't', '.', 'A', 'A', 'R', 'C', 'H', '6', '4', '_', 'U', 'N', 'K', 'N', 'O', 'W', 'N', '_', 'N', 'T', 'O', '_', 'Q', 'N', 'X', '7', '0', '0', '.', 'h', 't', 'm', 'l'],
  ['[', 'a', 'a', 'r', 'c', 'h', '6', '4', '-', 'u', 'n', 'k', 'n', 'o', 'w', 'n', '-', 'n', 't', 'o', '-', 'q', 'n', 'x', '7', '1', '0', ']', ':', ' ', 'h', 't', 't', 'p', 's', ':', '/', '/', 'd', 'o', 'c', 's', '.', 'r', 's', '/', 'p', 'l', 'a', 't', 'f', 'o', 'r', 'm', 's', '/', 'l', 'a', 't', 'e', 's', 't', '/', 'p', 'l', 'a', 't', 'f', 'o', 'r', 'm', 's', '/', 'p', 'l', 'a', 't', 'f', 'o', 'r', 'm', '/', 'c', 'o', 'n', 's', 't', 'a', 'n', 't', '.', 'A', 'A', 'R', 'C', 'H', '6', '4', '_', 'U', 'N', 'K', 'N', 'O', 'W', 'N', '_', 'N', 'T', 'O', '_', 'Q', 'N', 'X', '7', '1', '0', '.', 'h', 't', 'm', 'l'],
  ['[', 'a', 'a', 'r', 'c', 'h', '6', '4', '-', 'u', 'n', 'k', 'n', 'o', 'w', 'n', '-', 'n', 't', 'o', '-', 'q', 'n', 'x', '7', '1', '0', '_', 'i', 'o', 's', 'o', 'c', 'k', ']', ':', ' ', 'h', 't', 't', 'p', 's', ':', '/', '/', 'd', 'o', 'c', 's', '.', 'r', 's', '/', 'p', 'l', 'a', 't', 'f', 'o', 'r', 'm', 's', '/', 'l', 'a', 't', 'e', 's', 't', '/', 'p', 'l', 'a', 't', 'f', 'o', 'r', 'm', 's', '/', 'p', 'l', 'a', 't', 'f', 'o', 'r', 'm', '/', 'c', 'o', 'n', 's', 't', 'a', 'n', 't', '.', 'A', 'A', 'R', 'C', 'H', '6', '4', '_', 'U', 'N', 'K', 'N', 'O', 'W', 'N', '_', 'N', 'T', 'O', '_', 'Q', 'N', 'X', '7', '1', '0', '_', 'I', 'O', 'S', 'O', 'C', 'K', '.', 'h', 't', 'm', 'l'],
  ['[', 'a', 'a', 'r', 'c', 'h', '6', '4', '-', 'u', 'n', 'k', 'n', 'o', 'w', 'n', '-', 'n', 'u', 't', 't', 'x', ']', ':', ' ', 'h', 't', 't', 'p', 's', ':', '/', '/', 'd', 'o', 'c', 's', '.', 'r', 's', '/', 'p', 'l', 'a', 't', 'f', 'o', 'r', 'm', 's', '/', 'l', 'a', 't', 'e', 's', 't', '/', 'p', 'l', 'a', 't', 'f', 'o', 'r', 'm', 's', '/', 'p', 'l', 'a', 't', 'f', 'o', 'r', 'm', '/', 'c', 'o', 'n', 's', 't', 'a', 'n', 't', '.', 'A', 'A', 'R', 'C', 'H', '6', '4', '_', 'U', 'N', 'K', 'N', 'O', 'W', 'N', '_', 'N', 'U', 'T', 'T', 'X', '.', 'h', 't', 'm', 'l'],
  ['[', 'a', 'a', 'r', 'c', 'h', '6', '4', '-', 'u', 'n', 'k', 'n', 'o', 'w', 'n', '-', 'o', 'p', 'e', 'n', 'b', 's', 'd', ']', ':', ' ', 'h', 't', 't', 'p', 's', ':', '/', '/', 'd', 'o', 'c', 's', '.', 'r', 's', '/', 'p', 'l', 'a', 't', 'f', 'o', 'r', 'm', 's', '/', 'l', 'a', 't', 'e', 's', 't', '/', 'p', 'l', 'a', 't', 'f', 'o', 'r', 'm', 's', '/', 'p', 'l', 'a', 't', 'f', 'o', 'r', 'm', '/', 'c', 'o', 'n', 's', 't', 'a', 'n', 't', '.', 'A', 'A', 'R', 'C', 'H', '6', '4', '_', 'U', 'N', 'K', 'N', 'O', 'W', 'N', '_', 'O', 'P', 'E', 'N', 'B', 'S', 'D', '.', 'h', 't', 'm', 'l'],
  ['[', 'a', 'a', 'r', 'c', 'h', '6', '4', '-', 'u', 'n', 'k', 'n', 'o', 'w', 'n', '-', 'q', 'n', 'x', ']', ':', ' ', 'h', 't', 't', 'p', 's', ':', '/', '/', 'd', 'o', 'c', 's', '.', 'r', 's', '/', 'p', 'l', 'a', 't', 'f', 'o', 'r', 'm', 's', '/', 'l', 'a', 't', 'e', 's', 't', '/', 'p', 'l', 'a', 't', 'f', 'o', 'r', 'm', 's', '/', 'p', 'l', 'a', 't', 'f', 'o', 'r', 'm', '/', 'c', 'o', 'n', 's', 't', 'a', 'n', 't', '.', 'A', 'A', 'R', 'C', 'H', '6', '4', '_', 'U', 'N', 'K', 'N', 'O', 'W', 'N', '_', 'Q', 'N', 'X', '.', 'h', 't', 'm', 'l'],
  ['[', 'a', 'a', 'r', 'c', 'h', '6', '4', '-', 'u', 'n', 'k', 'n', 'o', 'w', 'n', '-', 'r', 'e', 'd', 'o', 'x', ']', ':', ' ', 'h', 't', 't', 'p', 's', ':', '/', '/', 'd', 'o', 'c', 's', '.', 'r', 's', '/', 'p', 'l', 'a', 't', 'f', 'o', 'r', 'm', 's', '/', 'l', 'a', 't', 'e', 's', 't', '/', 'p', 'l', 'a', 't', 'f', 'o', 'r', 'm', 's', '/', 'p', 'l', 'a', 't', 'f', 'o', 'r', 'm', '/', 'c', 'o', 'n', 's', 't', 'a', 'n', 't', '.', 'A', 'A', 'R', 'C', 'H', '6', '4', '_', 'U', 'N', 'K', 'N', 'O', 'W', 'N', '_', 'R', 'E', 'D', 'O', 'X', '.', 'h', 't', 'm', 'l'],
  ['[', 'a', 'a', 'r', 'c', 'h', '6', '4', '-', 'u', 'n', 'k', 'n', 'o', 'w', 'n', '-', 't', 'e', 'e', 'o', 's', ']', ':', ' ', 'h', 't', 't', 'p', 's', ':', '/', '/', 'd', 'o', 'c', 's', '.', 'r', 's', '/', 'p', 'l', 'a', 't', 'f', 'o', 'r', 'm', 's', '/', 'l', 'a', 't', 'e', 's', 't', '/', 'p', 'l', 'a', 't', 'f', 'o', 'r', 'm', 's', '/', 'p', 'l', 'a', 't', 'f', 'o', 'r', 'm', '/', 'c', 'o', 'n', 's', 't', 'a', 'n', 't', '.', 'A', 'A', 'R', 'C', 'H', '6', '4', '_', 'U', 'N', 'K', 'N', 'O', 'W', 'N', '_', 'T', 'E', 'E', 'O', 'S', '.', 'h', 't', 'm', 'l'],
  ['[', 'a', 'a', 'r', 'c', 'h', '6', '4', '-', 'u', 'n', 'k', 'n', 'o', 'w', 'n', '-', 't', 'r', 'u', 's', 't', 'y', ']', ':', ' ', 'h', 't', 't', 'p', 's', ':', '/', '/', 'd', 'o', 'c', 's', '.', 'r', 's', '/', 'p', 'l', 'a', 't', 'f', 'o', 'r', 'm', 's', '/', 'l', 'a', 't', 'e', 's', 't', '/', 'p', 'l', 'a', 't', 'f', 'o', 'r', 'm', 's', '/', 'p', 'l', 'a', 't', 'f', 'o', 'r', 'm', '/', 'c', 'o', 'n', 's', 't', 'a', 'n', 't', '.', 'A', 'A', 'R', 'C', 'H', '6', '4', '_', 'U', 'N', 'K', 'N', 'O', 'W', 'N', '_', 'T', 'R', 'U', 'S', 'T', 'Y', '.', 'h', 't', 'm', 'l'],
  ['[', 'a', 'a', 'r', 'c', 'h', '6', '4', '-', 'u', 'n', 'k', 'n', 'o', 'w', 'n', '-', 'u', 'e', 'f', 'i', ']', ':', ' ', 'h', 't', 't', 'p', 's', ':', '/', '/', 'd', 'o', 'c', 's', '.', 'r', 's', '/', 'p', 'l', 'a', 't', 'f', 'o', 'r', 'm', 's', '/', 'l', 'a', 't', 'e', 's', 't', '/', 'p', 'l', 'a', 't', 'f', 'o', 'r', 'm', 's', '/', 'p', 'l', 'a', 't', 'f', 'o', 'r', 'm', '/', 'c', 'o', 'n', 's', 't', 'a', 'n', 't', '.', 'A', 'A', 'R', 'C', 'H', '6', '4', '_', 'U', 'N', 'K', 'N', 'O', 'W', 'N', '_', 'U', 'E', 'F', 'I', '.', 'h', 't', 'm', 'l'],
  ['[', 'a', 'a', 'r', 'c', 'h', '6', '4', '-', 'u', 'w', 'p', '-', 'w', 'i', 'n', 'd', 'o', 'w', 's', '-', 'm', 's', 'v', 'c', ']', ':', ' ', 'h', 't', 't', 'p', 's', ':', '/', '/', 'd', 'o', 'c', 's', '.', 'r', 's', '/', 'p', 'l', 'a', 't', 'f', 'o', 'r', 'm', 's', '/', 'l', 'a', 't', 'e', 's', 't', '/', 'p', 'l', 'a', 't', 'f', 'o', 'r', 'm', 's', '/', 'p', 'l', 'a', 't', 'f', 'o', 'r', 'm', '/', 'c', 'o', 'n', 's', 't', 'a', 'n', 't', '.', 'A', 'A', 'R', 'C', 'H', '6', '4', '_', 'U', 'W', 'P', '_', 'W', 'I', 'N', 'D', 'O', 'W', 'S', '_', 'M', 'S', 'V', 'C', '.', 'h', 't', 'm', 'l'],
  ['[', 'a', 'a', 'r', 'c', 'h', '6', '4', '-', 'w', 'r', 's', '-', 'v', 'x', 'w', 'o', 'r', 'k', 's', ']', ':', ' ', 'h', 't', 't', 'p', 's', ':', '/', '/', 'd', 'o', 'c', 's', '.', 'r', 's', '/', 'p', 'l', 'a', 't', 'f', 'o', 'r', 'm', 's', '/', 'l', 'a', 't', 'e', 's', 't', '/', 'p', 'l', 'a', 't', 'f', 'o', 'r', 'm', 's', '/', 'p', 'l', 'a', 't', 'f', 'o', 'r', 'm', '/', 'c', 'o', 'n', 's', 't', 'a', 'n', 't', '.', 'A', 'A', 'R', 'C', 'H', '6', '4', '_', 'W', 'R', 'S', '_', 'V', 'X', 'W', 'O', 'R', 'K', 'S', '.', 'h', 't', 'm', 'l'],
  ['[', 'a', 'a', 'r', 'c', 'h', '6', '4', '_', 'b', 'e', '-', 'u', 'n', 'k', 'n', 'o', 'w', 'n', '-', 'h', 'e', 'r', 'm', 'i', 't', ']', ':', ' ', 'h', 't', 't', 'p', 's', ':', '/', '/', 'd', 'o', 'c', 's', '.', 'r', 's', '/', 'p', 'l', 'a', 't', 'f', 'o', 'r', 'm', 's', '/', 'l', 'a', 't', 'e', 's', 't', '/', 'p', 'l', 'a', 't', 'f', 'o', 'r', 'm', 's', '/', 'p', 'l', 'a', 't', 'f', 'o', 'r', 'm', '/', 'c', 'o', 'n', 's', 't', 'a', 'n', 't', '.', 'A', 'A', 'R', 'C', 'H', '6', '4', '_', 'B', 'E', '_', 'U', 'N', 'K', 'N', 'O', 'W', 'N', '_', 'H', 'E', 'R', 'M', 'I', 'T', '.', 'h', 't', 'm', 'l'],
  ['[', 'a', 'a', 'r', 'c', 'h', '6', '4', '_', 'b', 'e', '-', 'u', 'n', 'k', 'n', 'o', 'w', 'n', '-', 'l', 'i', 'n', 'u', 'x', '-', 'g', 'n', 'u', ']', ':', ' ', 'h', 't', 't', 'p', 's', ':', '/', '/', 'd', 'o', 'c', 's', '.', 'r', 's', '/', 'p', 'l', 'a', 't', 'f', 'o', 'r', 'm', 's', '/', 'l', 'a', 't', 'e', 's', 't', '/', 'p', 'l', 'a', 't', 'f', 'o', 'r', 'm', 's', '/', 'p', 'l', 'a', 't', 'f', 'o', 'r', 'm', '/', 'c', 'o', 'n', 's', 't', 'a', 'n', 't', '.', 'A', 'A', 'R', 'C', 'H', '6', '4', '_', 'B', 'E', '_', 'U', 'N', 'K', 'N', 'O', 'W', 'N', '_', 'L', 'I', 'N', 'U', 'X', '_', 'G', 'N', 'U', '.', 'h', 't', 'm', 'l'],
  ['[', 'a', 'a', 'r', 'c', 'h', '6', '4', '_', 'b', 'e', '-', 'u', 'n', 'k', 'n', 'o', 'w', 'n', '-', 'l', 'i', 'n', 'u', 'x', '-', 'g', 'n', 'u', '_', 'i', 'l', 'p', '3', '2', ']', ':', ' ', 'h', 't', 't', 'p', 's', ':', '/', '/', 'd', 'o', 'c', 's', '.', 'r', 's', '/', 'p', 'l', 'a', 't', 'f', 'o', 'r', 'm', 's', '/', 'l', 'a', 't', 'e', 's', 't', '/', 'p', 'l', 'a', 't', 'f', 'o', 'r', 'm', 's', '/', 'p', 'l', 'a', 't', 'f', 'o', 'r', 'm', '/', 'c', 'o', 'n', 's', 't', 'a', 'n', 't', '.', 'A', 'A', 'R', 'C', 'H', '6', '4', '_', 'B', 'E', '_', 'U', 'N', 'K', 'N', 'O', 'W', 'N', '_', 'L', 'I', 'N', 'U', 'X', '_', 'G', 'N', 'U', '_', 'I', 'L', 'P', '3', '2', '.', 'h', 't', 'm', 'l'],
  ['[', 'a', 'a', 'r', 'c', 'h', '6', '4', '_', 'b', 'e', '-', 'u', 'n', 'k', 'n', 'o', 'w', 'n', '-', 'l', 'i', 'n', 'u', 'x', '-', 'm', 'u', 's', 'l', ']', ':', ' ', 'h', 't', 't', 'p', 's', ':', '/', '/', 'd', 'o', 'c', 's', '.', 'r', 's', '/', 'p', 'l', 'a', 't', 'f', 'o', 'r', 'm', 's', '/', 'l', 'a', 't', 'e', 's', 't', '/', 'p', 'l', 'a', 't', 'f', 'o', 'r', 'm', 's', '/', 'p', 'l', 'a', 't', 'f', 'o', 'r', 'm', '/', 'c', 'o', 'n', 's', 't', 'a', 'n', 't', '.', 'A', 'A', 'R', 'C', 'H', '6', '4', '_', 'B', 'E', '_', 'U', 'N', 'K', 'N', 'O', 'W', 'N', '_', 'L', 'I', 'N', 'U', 'X', '_', 'M', 'U', 'S', 'L', '.', 'h', 't', 'm', 'l'],
  ['[', 'a', 'a', 'r', 'c', 'h', '6', '4', '_', 'b', 'e', '-', 'u', 'n', 'k', 'n', 'o', 'w', 'n', '-', 'n', 'e', 't', 'b', 's', 'd', ']', ':', ' ', 'h', 't', 't', 'p', 's', ':', '/', '/', 'd', 'o', 'c', 's', '.', 'r', 's', '/', 'p', 'l', 'a', 't', 'f', 'o', 'r', 'm', 's', '/', 'l', 'a', 't', 'e', 's', 't', '/', 'p', 'l', 'a', 't', 'f', 'o', 'r', 'm', 's', '/', 'p', 'l', 'a', 't', 'f', 'o', 'r', 'm', '/', 'c', 'o', 'n', 's', 't', 'a', 'n', 't', '.', 'A', 'A', 'R', 'C', 'H', '6', '4', '_', 'B', 'E', '_', 'U', 'N', 'K', 'N', 'O', 'W', 'N', '_', 'N', 'E', 'T', 'B', 'S', 'D', '.', 'h', 't', 'm', 'l'],
  ['[', 'a', 'a', 'r', 'c', 'h', '6', '4', '_', 'b', 'e', '-', 'u', 'n', 'k', 'n', 'o', 'w', 'n', '-', 'n', 'o', 'n', 'e', '-', 's', 'o', 'f', 't', 'f', 'l', 'o', 'a', 't', ']', ':', ' ', 'h', 't', 't', 'p', 's', ':', '/', '/', 'd', 'o', 'c', 's', '.', 'r', 's', '/', 'p', 'l', 'a', 't', 'f', 'o', 'r', 'm', 's', '/', 'l', 'a', 't', 'e', 's', 't', '/', 'p', 'l', 'a', 't', 'f', 'o', 'r', 'm', 's', '/', 'p', 'l', 'a', 't', 'f', 'o', 'r', 'm', '/', 'c', 'o', 'n', 's', 't', 'a', 'n', 't', '.', 'A', 'A', 'R', 'C', 'H', '6', '4', '_', 'B', 'E', '_', 'U', 'N', 'K', 'N', 'O', 'W', 'N', '_', 'N', 'O', 'N', 'E', '_', 'S', 'O', 'F', 'T', 'F', 'L', 'O', 'A', 'T', '.', 'h', 't', 'm', 'l'],
  ['[', 'a', 'a', 'r', 'c', 'h', '6', '4', 'v', '8', 'r', '-', 'u', 'n', 'k', 'n', 'o', 'w', 'n', '-', 'n', 'o', 'n', 'e', ']', ':', ' ', 'h', 't', 't', 'p', 's', ':', '/', '/', 'd', 'o', 'c', 's', '.', 'r', 's', '/', 'p', 'l', 'a', 't', 'f', 'o', 'r', 'm', 's', '/', 'l', 'a', 't', 'e', 's', 't', '/', 'p', 'l', 'a', 't', 'f', 'o', 'r', 'm', 's', '/', 'p', 'l', 'a', 't', 'f', 'o', 'r', 'm', '/', 'c', 'o', 'n', 's', 't', 'a', 'n', 't', '.', 'A', 'A', 'R', 'C', 'H', '6', '4', 'V', '8', 'R', '_', 'U', 'N', 'K', 'N', 'O', 'W', 'N', '_', 'N', 'O', 'N', 'E', '.', 'h', 't', 'm', 'l'],
  ['[', 'a', 'a', 'r', 'c', 'h', '6', '4', 'v', '8', 'r', '-', 'u', 'n', 'k', 'n', 'o', 'w', 'n', '-', 'n', 'o', 'n', 'e', '-', 's', 'o', 'f', 't', 'f', 'l', 'o', 'a', 't', ']', ':', ' ', 'h', 't', 't', 'p', 's', ':', '/', '/', 'd', 'o', 'c', 's', '.', 'r', 's', '/', 'p', 'l', 'a', 't', 'f', 'o', 'r', 'm', 's', '/', 'l', 'a', 't', 'e', 's', 't', '/', 'p', 'l', 'a', 't', 'f', 'o', 'r', 'm', 's', '/', 'p', 'l', 'a', 't', 'f', 'o', 'r', 'm', '/', 'c', 'o', 'n', 's', 't', 'a', 'n', 't', '.', 'A', 'A', 'R', 'C', 'H', '6', '4', 'V', '8', 'R', '_', 'U', 'N', 'K', 'N', 'O', 'W', 'N', '_', 'N', 'O', 'N', 'E', '_', 'S', 'O', 'F', 'T', 'F', 'L', 'O', 'A', 'T', '.', 'h', 't', 'm', 'l'],
  ['[', 'a', 'm', 'd', 'g', 'c', 'n', '-', 'a', 'm', 'd', '-', 'a', 'm', 'd', 'h', 's', 'a', ']', ':', ' ', 'h', 't', 't', 'p', 's', ':', '/', '/', 'd', 'o', 'c', 's', '.', 'r', 's', '/', 'p', 'l', 'a', 't', 'f', 'o', 'r', 'm', 's', '/', 'l', 'a', 't', 'e', 's', 't', '/', 'p', 'l', 'a', 't', 'f', 'o', 'r', 'm', 's', '/', 'p', 'l', 'a', 't', 'f', 'o', 'r', 'm', '/', 'c', 'o', 'n', 's', 't', 'a', 'n', 't', '.', 'A', 'M', 'D', 'G', 'C', 'N', '_', 'A', 'M', 'D', '_', 'A', 'M', 'D', 'H', 'S', 'A', '.', 'h', 't', 'm', 'l'],
  ['[', 'a', 'r', 'm', '-', 'l', 'i', 'n', 'u', 'x', '-', 'a', 'n', 'd', 'r', 'o', 'i', 'd', 'e', 'a', 'b', 'i', ']', ':', ' ', 'h', 't', 't', 'p', 's', ':', '/', '/', 'd', 'o', 'c', 's', '.', 'r', 's', '/', 'p', 'l', 'a', 't', 'f', 'o', 'r', 'm', 's', '/', 'l', 'a', 't', 'e', 's', 't', '/', 'p', 'l', 'a', 't', 'f', 'o', 'r', 'm', 's', '/', 'p', 'l', 'a', 't', 'f', 'o', 'r', 'm', '/', 'c', 'o', 'n', 's', 't', 'a', 'n', 't', '.', 'A', 'R', 'M', '_', 'L', 'I', 'N', 'U', 'X', '_', 'A', 'N', 'D', 'R', 'O', 'I', 'D', 'E', 'A', 'B', 'I', '.', 'h', 't', 'm', 'l'],
  ['[', 'a', 'r', 'm', '-', 'u', 'n', 'k', 'n', 'o', 'w', 'n', '-', 'l', 'i', 'n', 'u', 'x', '-', 'g', 'n', 'u', 'e', 'a', 'b', 'i', ']', ':', ' ', 'h', 't', 't', 'p', 's', ':', '/', '/', 'd', 'o', 'c', 's', '.', 'r', 's', '/', 'p', 'l', 'a', 't', 'f', 'o', 'r', 'm', 's', '/', 'l', 'a', 't', 'e', 's', 't', '/', 'p', 'l', 'a', 't', 'f', 'o', 'r', 'm', 's', '/', 'p', 'l', 'a', 't', 'f', 'o', 'r', 'm', '/', 'c', 'o', 'n', 's', 't', 'a', 'n', 't', '.', 'A', 'R', 'M', '_', 'U', 'N', 'K', 'N', 'O', 'W', 'N', '_', 'L', 'I', 'N', 'U', 'X', '_', 'G', 'N', 'U', 'E', 'A', 'B', 'I', '.', 'h', 't', 'm', 'l']]

/-- `platforms/README.md:463-487`. -/
def readme16 : List Str := [
  ['[', 'a', 'r', 'm', '-', 'u', 'n', 'k', 'n', 'o', 'w', 'n', '-', 'l', 'i', 'n', 'u', 'x', '-', 'g', 'n', 'u', 'e', 'a', 'b', 'i', 'h', 'f', ']', ':', ' ', 'h', 't', 't', 'p', 's', ':', '/', '/', 'd', 'o', 'c', 's', '.', 'r', 's', '/', 'p', 'l', 'a', 't', 'f', 'o', 'r', 'm', 's', '/', 'l', 'a', 't', 'e', 's', 't', '/', 'p', 'l', 'a', 't', 'f', 'o', 'r', 'm', 's', '/', 'p', 'l', 'a', 't', 'f', 'o', 'r', 'm', '/', 'c', 'o', 'n', 's', 't', 'a', 'n', 't', '.', 'A', 'R', 'M', '_', 'U', 'N', 'K', 'N', 'O', 'W', 'N', '_', 'L', 'I', 'N', 'U', 'X', '_', 'G', 'N', 'U', 'E', 'A', 'B', 'I', 'H', 'F', '.', 'h', 't', 'm', 'l'],
  ['[', 'a', 'r', 'm', '-', 'u', 'n', 'k', 'n', 'o', 'w', 'n', '-', 'l', 'i', 'n', 'u', 'x', '-', 'm', 'u', 's', 'l', 'e', 'a', 'b', 'i', ']', ':', ' ', 'h', 't', 't', 'p', 's', ':', '/', '/', 'd', 'o', 'c', 's', '.', 'r', 's', '/', 'p', 'l', 'a', 't', 'f', 'o', 'r', 'm', 's', '/', 'l', 'a', 't', 'e', 's', 't', '/', 'p', 'l', 'a', 't', 'f', 'o', 'r', 'm', 's', '/', 'p', 'l', 'a', 't', 'f', 'o', 'r', 'm', '/', 'c', 'o', 'n', 's', 't', 'a', 'n', 't', '.', 'A', 'R', 'M', '_', 'U', 'N', 'K', 'N', 'O', 'W', 'N', '_', 'L', 'I', 'N', 'U', 'X', '_', 'M', 'U', 'S', 'L', 'E', 'A', 'B', 'I', '.', 'h', 't', 'm', 'l'],
  ['[', 'a', 'r', 'm', '-', 'u', 'n', 'k', 'n', 'o', 'w', 'n', '-', 'l', 'i', 'n', 'u', 'x', '-', 'm', 'u', 's', 'l', 'e', 'a', 'b', 'i', 'h', 'f', ']', ':', ' ', 'h', 't', 't', 'p', 's', ':', '/', '/', 'd', 'o', 'c', 's', '.', 'r', 's', '/', 'p', 'l', 'a', 't', 'f', 'o', 'r', 'm', 's', '/', 'l', 'a', 't', 'e', 's', 't', '/', 'p', 'l', 'a', 't', 'f', 'o', 'r', 'm', 's', '/', 'p', 'l', 'a', 't', 'f', 'o', 'r', 'm', '/', 'c', 'o', 'n', 's', 't', 'a', 'n', 't', '.', 'A', 'R', 'M', '_', 'U', 'N', 'K', 'N', 'O', 'W', 'N', '_', 'L', 'I', 'N', 'U', 'X', '_', 'M', 'U', 'S', 'L', 'E', 'A', 'B', 'I', 'H', 'F', '.', 'h', 't', 'm', 'l'],
  ['[', 'a', 'r', 'm', '6', '4', '_', '3', '2', '-', 'a', 'p', 'p', 'l', 'e', '-', 'w', 'a', 't', 'c', 'h', 'o', 's', ']', ':', ' ', 'h', 't', 't', 'p', 's', ':', '/', '/', 'd', 'o', 'c', 's', '.', 'r', 's', '/', 'p', 'l', 'a', 't', 'f', 'o', 'r', 'm', 's', '/', 'l', 'a', 't', 'e', 's', 't', '/', 'p', 'l', 'a', 't', 'f', 'o', 'r', 'm', 's', '/', 'p', 'l', 'a', 't', 'f', 'o', 'r', 'm', '/', 'c', 'o', 'n', 's', 't', 'a', 'n', 't', '.', 'A', 'R', 'M', '6', '4', '_', '3', '2', '_', 'A', 'P', 'P', 'L', 'E', '_', 'W', 'A', 'T', 'C', 'H', 'O', 'S', '.', 'h', 't', 'm', 'l'],
  ['[', 'a', 'r', 'm', '6', '4', 'e', '-', 'a', 'p', 'p', 'l', 'e', '-', 'd', 'a', 'r', 'w', 'i', 'n', ']', ':', ' ', 'h', 't', 't', 'p', 's', ':', '/', '/', 'd', 'o', 'c', 's', '.', 'r', 's', '/', 'p', 'l', 'a', 't', 'f', 'o', 'r', 'm', 's', '/', 'l', 'a', 't', 'e', 's', 't', '/', 'p', 'l', 'a', 't', 'f', 'o', 'r', 'm', 's', '/', 'p', 'l', 'a', 't', 'f', 'o', 'r', 'm', '/', 'c', 'o', 'n', 's', 't', 'a', 'n', 't', '.', 'A', 'R', 'M', '6', '4', 'E', '_', 'A', 'P', 'P', 'L', 'E', '_', 'D', 'A', 'R', 'W', 'I', 'N', '.', 'h', 't', 'm', 'l'],
  ['[', 'a', 'r', 'm', '6', '4', 'e', '-', 'a', 'p', 'p', 'l', 'e', '-', 'i', 'o', 's', ']', ':', ' ', 'h', 't', 't', 'p', 's', ':', '/', '/', 'd', 'o', 'c', 's', '.', 'r', 's', '/', 'p', 'l', 'a', 't', 'f', 'o', 'r', 'm', 's', '/', 'l', 'a', 't', 'e', 's', 't', '/', 'p', 'l', 'a', 't', 'f', 'o', 'r', 'm', 's', '/', 'p', 'l', 'a', 't', 'f', 'o', 'r', 'm', '/', 'c', 'o', 'n', 's', 't', 'a', 'n', 't', '.', 'A', 'R', 'M', '6', '4', 'E', '_', 'A', 'P', 'P', 'L', 'E', '_', 'I', 'O', 'S', '.', 'h', 't', 'm', 'l'],
  ['[', 'a', 'r', 'm', '6', '4', 'e', '-', 'a', 'p', 'p', 'l', 'e', '-', 't', 'v', 'o', 's', ']', ':', ' ', 'h', 't', 't', 'p', 's', ':', '/', '/', 'd', 'o', 'c', 's', '.', 'r', 's', '/', 'p', 'l', 'a', 't', 'f', 'o', 'r', 'm', 's', '/', 'l', 'a', 't', 'e', 's', 't', '/', 'p', 'l', 'a', 't', 'f', 'o', 'r', 'm', 's', '/', 'p', 'l', 'a', 't', 'f', 'o', 'r', 'm', '/', 'c', 'o', 'n', 's', 't', 'a', 'n', 't', '.', 'A', 'R', 'M', '6', '4', 'E', '_', 'A', 'P', 'P', 'L', 'E', '_', 'T', 'V', 'O', 'S', '.', 'h', 't', 'm', 'l'],
  ['[', 'a', 'r', 'm', '6', '4', 'e', 'c', '-', 'p', 'c', '-', 'w', 'i', 'n', 'd', 'o', 'w', 's', '-', 'm', 's', 'v', 'c', ']', ':', ' ', 'h', 't', 't', 'p', 's', ':', '/', '/', 'd', 'o', 'c', 's', '.', 'r', 's', '/', 'p', 'l', 'a', 't', 'f', 'o', 'r', 'm', 's', '/', 'l', 'a', 't', 'e', 's', 't', '/', 'p', 'l', 'a', 't', 'f', 'o', 'r', 'm', 's', '/', 'p', 'l', 'a', 't', 'f', 'o', 'r', 'm', '/', 'c', 'o', 'n', 's', 't', 'a', 'n', 't', '.', 'A', 'R', 'M', '6', '4', 'E', 'C', '_', 'P', 'C', '_', 'W', 'I', 'N', 'D', 'O', 'W', 'S', '_', 'M', 'S', 'V', 'C', '.', 'h', 't', 'm', 'l'],
  ['[', 'a', 'r', 'm', 'e', 'b', '-', 'u', 'n', 'k', 'n', 'o', 'w', 'n', '-', 'l', 'i', 'n', 'u', 'x', '-', 'g', 'n', 'u', 'e', 'a', 'b', 'i', ']', ':', ' ', 'h', 't', 't', 'p', 's', ':', '/', '/', 'd', 'o', 'c', 's', '.', 'r', 's', '/', 'p', 'l', 'a', 't', 'f', 'o', 'r', 'm', 's', '/', 'l', 'a', 't', 'e', 's', 't', '/', 'p', 'l', 'a', 't', 'f', 'o', 'r', 'm', 's', '/', 'p', 'l', 'a', 't', 'f', 'o', 'r', 'm', '/', 'c', 'o', 'n', 's', 't', 'a', 'n', 't', '.', 'A', 'R', 'M', 'E', 'B', '_', 'U', 'N', 'K', 'N', 'O', 'W', 'N', '_', 'L', 'I', 'N', 'U', 'X', '_', 'G', 'N', 'U', 'E', 'A', 'B', 'I', '.', 'h', 't', 'm', 'l'],
  ['[', 'a', 'r', 'm', 'e', 'b', 'v', '7', 'r', '-', 'n', 'o', 'n', 'e', '-', 'e', 'a', 'b', 'i', ']', ':', ' ', 'h', 't', 't', 'p', 's', ':', '/', '/', 'd', 'o', 'c', 's', '.', 'r', 's', '/', 'p', 'l', 'a', 't', 'f', 'o', 'r', 'm', 's', '/', 'l', 'a', 't', 'e', 's', 't', '/', 'p', 'l', 'a', 't', 'f', 'o', 'r', 'm', 's', '/', 'p', 'l', 'a', 't', 'f', 'o', 'r', 'm', '/', 'c', 'o', 'n', 's', 't', 'a', 'n', 't', '.', 'A', 'R', 'M', 'E', 'B', 'V', '7', 'R', '_', 'N', 'O', 'N', 'E', '_', 'E', 'A', 'B', 'I', '.', 'h', 't', 'm', 'l'],
  ['[', 'a', 'r', 'm', 'e', 'b', 'v', '7', 'r', '-', 'n', 'o', 'n', 'e', '-', 'e', 'a', 'b', 'i', 'h', 'f', ']', ':', ' ', 'h', 't', 't', 'p', 's', ':', '/', '/', 'd', 'o', 'c', 's', '.', 'r', 's', '/', 'p', 'l', 'a', 't', 'f', 'o', 'r', 'm', 's', '/', 'l', 'a', 't', 'e', 's', 't', '/', 'p', 'l', 'a', 't', 'f', 'o', 'r', 'm', 's', '/', 'p', 'l', 'a', 't', 'f', 'o', 'r', 'm', '/', 'c', 'o', 'n', 's', 't', 'a', 'n', 't', '.', 'A', 'R', 'M', 'E', 'B', 'V', '7', 'R', '_', 'N', 'O', 'N', 'E', '_', 'E', 'A', 'B', 'I', 'H', 'F', '.', 'h', 't', 'm', 'l'],
  ['[', 'a', 'r', 'm', 'v', '4', 't', '-', 'n', 'o', 'n', 'e', '-', 'e', 'a', 'b', 'i', ']', ':', ' ', 'h', 't', 't', 'p', 's', ':', '/', '/', 'd', 'o', 'c', 's', '.', 'r', 's', '/', 'p', 'l', 'a', 't', 'f', 'o', 'r', 'm', 's', '/', 'l', 'a', 't', 'e', 's', 't', '/', 'p', 'l', 'a', 't', 'f', 'o', 'r', 'm', 's', '/', 'p', 'l', 'a', 't', 'f', 'o', 'r', 'm', '/', 'c', 'o', 'n', 's', 't', 'a', 'n', 't', '.', 'A', 'R', 'M', 'V', '4', 'T', '_', 'N', 'O', 'N', 'E', '_', 'E', 'A', 'B', 'I', '.', 'h', 't', 'm', 'l'],
  ['[', 'a', 'r', 'm', 'v', '4', 't', '-', 'u', 'n', 'k', 'n', 'o', 'w', 'n', '-', 'l', 'i', 'n', 'u', 'x', '-', 'g', 'n', 'u', 'e', 'a', 'b', 'i', ']', ':', ' ', 'h', 't', 't', 'p', 's', ':', '/', '/', 'd', 'o', 'c', 's', '.', 'r', 's', '/', 'p', 'l', 'a', 't', 'f', 'o', 'r', 'm', 's', '/', 'l', 'a', 't', 'e', 's', 't', '/', 'p', 'l', 'a', 't', 'f', 'o', 'r', 'm', 's', '/', 'p', 'l', 'a', 't', 'f', 'o', 'r', 'm', '/', 'c', 'o', 'n', 's', 't', 'a', 'n', 't', '.', 'A', 'R', 'M', 'V', '4', 'T', '_', 'U', 'N', 'K', 'N', 'O', 'W', 'N', '_', 'L', 'I', 'N', 'U', 'X', '_', 'G', 'N', 'U', 'E', 'A', 'B', 'I', '.', 'h', 't', 'm', 'l'],
  ['[', 'a', 'r', 'm', 'v', '5', 't', 'e', '-', 'n', 'o', 'n', 'e', '-', 'e', 'a', 'b', 'i', ']', ':', ' ', 'h', 't', 't', 'p', 's', ':', '/', '/', 'd', 'o', 'c', 's', '.', 'r', 's', '/', 'p', 'l', 'a', 't', 'f', 'o', 'r', 'm', 's', '/', 'l', 'a', 't', 'e', 's', 't', '/', 'p', 'l', 'a', 't', 'f', 'o', 'r', 'm', 's', '/', 'p', 'l', 'a', 't', 'f', 'o', 'r', 'm', '/', 'c', 'o', 'n', 's', 't', 'a', 'n', 't', '.', 'A', 'R', 'M', 'V', '5', 'T', 'E', '_', 'N', 'O', 'N', 'E', '_', 'E', 'A', 'B', 'I', '.', 'h', 't', 'm', 'l'],
  ['[', 'a', 'r', 'm', 'v', '5', 't', 'e', '-', 'u', 'n', 'k', 'n', 'o', 'w', 'n', '-', 'l', 'i', 'n', 'u', 'x', '-', 'g', 'n', 'u', 'e', 'a', 'b', 'i', ']', ':', ' ', 'h', 't', 't', 'p', 's', ':', '/', '/', 'd', 'o', 'c', 's', '.', 'r', 's', '/', 'p', 'l', 'a', 't', 'f', 'o', 'r', 'm', 's', '/', 'l', 'a', 't', 'e', 's', 't', '/', 'p', 'l', 'a', 't', 'f', 'o', 'r', 'm', 's', '/', 'p', 'l', 'a', 't', 'f', 'o', 'r', 'm', '/', 'c', 'o', 'n', 's', 't', 'a', 'n', 't', '.', 'A', 'R', 'M', 'V', '5', 'T', 'E', '_', 'U', 'N', 'K', 'N', 'O', 'W', 'N', '_', 'L', 'I', 'N', 'U', 'X', '_', 'G', 'N', 'U', 'E', 'A', 'B', 'I', '.', 'h', 't', 'm', 'l'],
  ['[', 'a', 'r', 'm', 'v', '5', 't', 'e', '-', 'u', 'n', 'k', 'n', 'o', 'w', 'n', '-', 'l', 'i', 'n', 'u', 'x', '-', 'm', 'u', 's', 'l', 'e', 'a', 'b', 'i', ']', ':', ' ', 'h', 't', 't', 'p', 's', ':', '/', '/', 'd', 'o', 'c', 's', '.', 'r', 's', '/', 'p', 'l', 'a', 't', 'f', 'o', 'r', 'm', 's', '/', 'l', 'a', 't', 'e', 's', 't', '/', 'p', 'l', 'a', 't', 'f', 'o', 'r', 'm', 's', '/', 'p', 'l', 'a', 't', 'f', 'o', 'r', 'm', '/', 'c', 'o', 'n', 's', 't', 'a', 'n', 't', '.', 'A', 'R', 'M', 'V', '5', 'T', 'E', '_', 'U', 'N', 'K', 'N', 'O', 'W', 'N', '_', 'L', 'I', 'N', 'U', 'X', '_', 'M', 'U', 'S', 'L', 'E', 'A', 'B', 'I', '.', 'h', 't', 'm', 'l'],
  ['[', 'a', 'r', 'm', 'v', '5', 't', 'e', '-', 'u', 'n', 'k', 'n', 'o', 'w', 'n', '-', 'l', 'i', 'n', 'u', 'x', '-', 'u', 'c', 'l', 'i', 'b', 'c', 'e', 'a', 'b', 'i', ']', ':', ' ', 'h', 't', 't', 'p', 's', ':', '/', '/', 'd', 'o', 'c', 's', '.', 'r', 's', '/', 'p', 'l', 'a', 't', 'f', 'o', 'r', 'm', 's', '/', 'l', 'a', 't', 'e', 's', 't', '/', 'p', 'l', 'a', 't', 'f', 'o', 'r', 'm', 's', '/', 'p', 'l', 'a', 't', 'f', 'o', 'r', 'm', '/', 'c', 'o', 'n', 's', 't', 'a', 'n', 't', '.', 'A', 'R', 'M', 'V', '5', 'T', 'E', '_', 'U', 'N', 'K', 'N', 'O', 'W', 'N', '_', 'L', 'I', 'N', 'U', 'X', '_', 'U', 'C', 'L', 'I', 'B', 'C', 'E', 'A', 'B', 'I', '.', 'h', 't', 'm', 'l'],
  ['[', 'a', 'r', 'm', 'v', '6', '-', 'n', 'o', 'n', 'e', '-', 'e', 'a', 'b', 'i', ']', ':', ' ', 'h', 't', 't', 'p', 's', ':', '/', '/', 'd', 'o', 'c', 's', '.', 'r', 's', '/', 'p', 'l', 'a', 't', 'f', 'o', 'r', 'm', 's', '/', 'l', 'a', 't', 'e', 's', 't', '/', 'p', 'l', 'a', 't', 'f', 'o', 'r', 'm', 's', '/', 'p', 'l', 'a', 't', 'f', 'o', 'r', 'm', '/', 'c', 'o', 'n', 's', 't', 'a', 'n', 't', '.', 'A', 'R', 'M', 'V', '6', '_', 'N', 'O', 'N', 'E', '_', 'E', 'A', 'B', 'I', '.', 'h', 't', 'm', 'l'],
  ['[', 'a', 'r', 'm', 'v', '6', '-', 'n', 'o', 'n', 'e', '-', 'e', 'a', 'b', 'i', 'h', 'f', ']', ':', ' ', 'h', 't', 't', 'p', 's', ':', '/', '/', 'd', 'o', 'c', 's', '.', 'r', 's', '/', 'p', 'l', 'a', 't', 'f', 'o', 'r', 'm', 's', '/', 'l', 'a', 't', 'e', 's', 't', '/', 'p', 'l', 'a', 't', 'f', 'o', 'r', 'm', 's', '/', 'p', 'l', 'a', 't', 'f', 'o', 'r', 'm', '/', 'c', 'o', 'n', 's', 't', 'a', 'n', 't', '.', 'A', 'R', 'M', 'V', '6', '_', 'N', 'O', 'N', 'E', '_', 'E', 'A', 'B', 'I', 'H', 'F', '.', 'h', 't', 'm', 'l'],
  ['[', 'a', 'r', 'm', 'v', '6', '-', 'u', 'n', 'k', 'n', 'o', 'w', 'n', '-', 'f', 'r', 'e', 'e', 'b', 's', 'd', ']', ':', ' ', 'h', 't', 't', 'p', 's', ':', '/', '/', 'd', 'o', 'c', 's', '.', 'r', 's', '/', 'p', 'l', 'a', 't', 'f', 'o', 'r', 'm', 's', '/', 'l', 'a', 't', 'e', 's', 't', '/', 'p', 'l', 'a', 't', 'f', 'o', 'r', 'm', 's', '/', 'p', 'l', 'a', 't', 'f', 'o', 'r', 'm', '/', 'c', 'o', 'n', 's', 't', 'a', 'n', 't', '.', 'A', 'R', 'M', 'V', '6', '_', 'U', 'N', 'K', 'N', 'O', 'W', 'N', '_', 'F', 'R', 'E', 'E', 'B', 'S', 'D', '.', 'h', 't', 'm', 'l'],
  ['[', 'a', 'r', 'm', 'v', '6', '-', 'u', 'n', 'k', 'n', 'o', 'w', 'n', '-', 'n', 'e', 't', 'b', 's', 'd', '-', 'e', 'a', 'b', 'i', 'h', 'f', ']', ':', ' ', 'h', 't', 't', 'p', 's', ':', '/', '/', 'd', 'o', 'c', 's', '.', 'r', 's', '/', 'p', 'l', 'a', 't', 'f', 'o', 'r', 'm', 's', '/', 'l', 'a', 't', 'e', 's', 't', '/', 'p', 'l', 'a', 't', 'f', 'o', 'r', 'm', 's', '/', 'p', 'l', 'a', 't', 'f', 'o', 'r', 'm', '/', 'c', 'o', 'n', 's', 't', 'a', 'n', 't', '.', 'A', 'R', 'M', 'V', '6', '_', 'U', 'N', 'K', 'N', 'O', 'W', 'N', '_', 'N', 'E', 'T', 'B', 'S', 'D', '_', 'E', 'A', 'B', 'I', 'H', 'F', '.', 'h', 't', 'm', 'l'],
  ['[', 'a', 'r', 'm', 'v', '6', 'k', '-', 'n', 'i', 'n', 't', 'e', 'n', 'd', 'o', '-', '3', 'd', 's', ']', ':', ' ', 'h', 't', 't', 'p', 's', ':', '/', '/', 'd', 'o', 'c', 's', '.', 'r', 's', '/', 'p', 'l', 'a', 't', 'f', 'o', 'r', 'm', 's', '/', 'l', 'a', 't', 'e', 's', 't', '/', 'p', 'l', 'a', 't', 'f', 'o', 'r', 'm', 's', '/', 'p', 'l', 'a', 't', 'f', 'o', 'r', 'm', '/', 'c', 'o', 'n', 's', 't', 'a', 'n', 't', '.', 'A', 'R', 'M', 'V', '6', 'K', '_', 'N', 'I', 'N', 'T', 'E', 'N', 'D', 'O', '_', '3', 'D', 'S', '.', 'h', 't', 'm', 'l'],
  ['[', 'a', 'r', 'm', 'v', '7', '-', 'l', 'i', 'n', 'u', 'x', '-', 'a', 'n', 'd', 'r', 'o', 'i', 'd', 'e', 'a', 'b', 'i', ']', ':', ' ', 'h', 't', 't', 'p', 's', ':', '/', '/', 'd', 'o', 'c', 's', '.', 'r', 's', '/', 'p', 'l', 'a', 't', 'f', 'o', 'r', 'm', 's', '/', 'l', 'a', 't', 'e', 's', 't', '/', 'p', 'l', 'a', 't', 'f', 'o', 'r', 'm', 's', '/', 'p', 'l', 'a', 't', 'f', 'o', 'r', 'm', '/', 'c', 'o', 'n', 's', 't', 'a', 'n', 't', '.', 'A', 'R', 'M', 'V', '7', '_', 'L', 'I', 'N', 'U', 'X', '_', 'A', 'N', 'D', 'R', 'O', 'I', 'D', 'E', 'A', 'B', 'I', '.', 'h', 't', 'm', 'l'],
  ['[', 'a', 'r', 'm', 'v', '7', '-', 'o', 'e', '-', 'l', 'i', 'n', 'u', 'x', '-', 'g', 'n', 'u', 'e', 'a', 'b', 'i', 'h', 'f', ']', ':', ' ', 'h', 't', 't', 'p', 's', ':', '/', '/', 'd', 'o', 'c', 's', '.', 'r', 's', '/', 'p', 'l', 'a', 't', 'f', 'o', 'r', 'm', 's', '/', 'l', 'a', 't', 'e', 's', 't', '/', 'p', 'l', 'a', 't', 'f', 'o', 'r', 'm', 's', '/', 'p', 'l', 'a', 't', 'f', 'o', 'r', 'm', '/', 'c', 'o', 'n', 's', 't', 'a', 'n', 't', '.', 'A', 'R', 'M', 'V', '7', '_', 'O', 'E', '_', 'L', 'I', 'N', 'U', 'X', '_', 'G', 'N', 'U', 'E', 'A', 'B', 'I', 'H', 'F', '.', 'h', 't', 'm', 'l'],
  ['[', 'a', 'r', 'm', 'v', '7', '-', 'r', 't', 'e', 'm', 's', '-', 'e', 'a', 'b', 'i', 'h', 'f', ']', ':', ' ', 'h', 't', 't', 'p', 's', ':', '/', '/', 'd', 'o', 'c', 's', '.', 'r', 's', '/', 'p', 'l', 'a', 't', 'f', 'o', 'r', 'm', 's', '/', 'l', 'a', 't', 'e', 's', 't', '/', 'p', 'l', 'a', 't', 'f', 'o', 'r', 'm', 's', '/', 'p', 'l', 'a', 't', 'f', 'o', 'r', 'm', '/', 'c', 'o', 'n', 's', 't', 'a', 'n', 't', '.', 'A', 'R', 'M', 'V', '7', '_', 'R', 'T', 'E', 'M', 'S', '_', 'E', 'A', 'B', 'I', 'H', 'F', '.', 'h', 't', 'm', 'l']]

/-- `platforms/README.md:488-512`. -/
def readme17 : List Str := [
  ['[', 'a', 'r', 'm', 'v', '7', '-', 's', 'o', 'n', 'y', '-', 'v', 'i', 't', 'a', '-', 'n', 'e', 'w', 'l', 'i', 'b', 'e', 'a', 'b', 'i', 'h', 'f', ']', ':', ' ', 'h', 't', 't', 'p', 's', ':', '/', '/', 'd', 'o', 'c', 's', '.', 'r', 's', '/', 'p', 'l', 'a', 't', 'f', 'o', 'r', 'm', 's', '/', 'l', 'a', 't', 'e', 's', 't', '/', 'p', 'l', 'a', 't', 'f', 'o', 'r', 'm', 's', '/', 'p', 'l', 'a', 't', 'f', 'o', 'r', 'm', '/', 'c', 'o', 'n', 's', 't', 'a', 'n', 't', '.', 'A', 'R', 'M', 'V', '7', '_', 'S', 'O', 'N', 'Y', '_', 'V', 'I', 'T', 'A', '_', 'N', 'E', 'W', 'L', 'I', 'B', 'E', 'A', 'B', 'I', 'H', 'F', '.', 'h', 't', 'm', 'l'],
  ['[', 'a', 'r', 'm', 'v', '7', '-', 'u', 'n', 'k', 'n', 'o', 'w', 'n', '-', 'f', 'r', 'e', 'e', 'b', 's', 'd', ']', ':', ' ', 'h', 't', 't', 'p', 's', ':', '/', '/', 'd', 'o', 'c', 's', '.', 'r', 's', '/', 'p', 'l', 'a', 't', 'f', 'o', 'r', 'm', 's', '/', 'l', 'a', 't', 'e', 's', 't', '/', 'p', 'l', 'a', 't', 'f', 'o', 'r', 'm', 's', '/', 'p', 'l', 'a', 't', 'f', 'o', 'r', 'm', '/', 'c', 'o', 'n', 's', 't', 'a', 'n', 't', '.', 'A', 'R', 'M', 'V', '7', '_', 'U', 'N', 'K', 'N', 'O', 'W', 'N', '_', 'F', 'R', 'E', 'E', 'B', 'S', 'D', '.', 'h', 't', 'm', 'l'],
  ['[', 'a', 'r', 'm', 'v', '7', '-', 'u', 'n', 'k', 'n', 'o', 'w', 'n', '-', 'l', 'i', 'n', 'u', 'x', '-', 'g', 'n', 'u', 'e', 'a', 'b', 'i', ']', ':', ' ', 'h', 't', 't', 'p', 's', ':', '/', '/', 'd', 'o', 'c', 's', '.', 'r', 's', '/', 'p', 'l', 'a', 't', 'f', 'o', 'r', 'm', 's', '/', 'l', 'a', 't', 'e', 's', 't', '/', 'p', 'l', 'a', 't', 'f', 'o', 'r', 'm', 's', '/', 'p', 'l', 'a', 't', 'f', 'o', 'r', 'm', '/', 'c', 'o', 'n', 's', 't', 'a', 'n', 't', '.', 'A', 'R', 'M', 'V', '7', '_', 'U', 'N', 'K', 'N', 'O', 'W', 'N', '_', 'L', 'I', 'N', 'U', 'X', '_', 'G', 'N', 'U', 'E', 'A', 'B', 'I', '.', 'h', 't', 'm', 'l'],
  ['[', 'a', 'r', 'm', 'v', '7', '-', 'u', 'n', 'k', 'n', 'o', 'w', 'n', '-', 'l', 'i', 'n', 'u', 'x', '-', 'g', 'n', 'u', 'e', 'a', 'b', 'i', 'h', 'f', ']', ':', ' ', 'h', 't', 't', 'p', 's', ':', '/', '/', 'd', 'o', 'c', 's', '.', 'r', 's', '/', 'p', 'l', 'a', 't', 'f', 'o', 'r', 'm', 's', '/', 'l', 'a', 't', 'e', 's', 't', '/', 'p', 'l', 'a', 't', 'f', 'o', 'r', 'm', 's', '/', 'p', 'l', 'a', 't', 'f', 'o', 'r', 'm', '/', 'c', 'o', 'n', 's', 't', 'a', 'n', 't', '.', 'A', 'R', 'M', 'V', '7', '_', 'U', 'N', 'K', 'N', 'O', 'W', 'N', '_', 'L', 'I', 'N', 'U', 'X', '_', 'G', 'N', 'U', 'E', 'A', 'B', 'I', 'H', 'F', '.', 'h', 't', 'm', 'l'],
  ['[', 'a', 'r', 'm', 'v', '7', '-', 'u', 'n', 'k', 'n', 'o', 'w', 'n', '-', 'l', 'i', 'n', 'u', 'x', '-', 'm', 'u', 's', 'l', 'e', 'a', 'b', 'i', ']', ':', ' ', 'h', 't', 't', 'p', 's', ':', '/', '/', 'd', 'o', 'c', 's', '.', 'r', 's', '/', 'p', 'l', 'a', 't', 'f', 'o', 'r', 'm', 's', '/', 'l', 'a', 't', 'e', 's', 't', '/', 'p', 'l', 'a', 't', 'f', 'o', 'r', 'm', 's', '/', 'p', 'l', 'a', 't', 'f', 'o', 'r', 'm', '/', 'c', 'o', 'n', 's', 't', 'a', 'n', 't', '.', 'A', 'R', 'M', 'V', '7', '_', 'U', 'N', 'K', 'N', 'O', 'W', 'N', '_', 'L', 'I', 'N', 'U', 'X', '_', 'M', 'U', 'S', 'L', 'E', 'A', 'B', 'I', '.', 'h', 't', 'm', 'l'],
  ['[', 'a', 'r', 'm', 'v', '7', '-', 'u', 'n', 'k', 'n', 'o', 'w', 'n', '-', 'l', 'i', 'n', 'u', 'x', '-', 'm', 'u', 's', 'l', 'e', 'a', 'b', 'i', 'h', 'f', ']', ':', ' ', 'h', 't', 't', 'p', 's', ':', '/', '/', 'd', 'o', 'c', 's', '.', 'r', 's', '/', 'p', 'l', 'a', 't', 'f', 'o', 'r', 'm', 's', '/', 'l', 'a', 't', 'e', 's', 't', '/', 'p', 'l', 'a', 't', 'f', 'o', 'r', 'm', 's', '/', 'p', 'l', 'a', 't', 'f', 'o', 'r', 'm', '/', 'c', 'o', 'n', 's', 't', 'a', 'n', 't', '.', 'A', 'R', 'M', 'V', '7', '_', 'U', 'N', 'K', 'N', 'O', 'W', 'N', '_', 'L', 'I', 'N', 'U', 'X', '_', 'M', 'U', 'S', 'L', 'E', 'A', 'B', 'I', 'H', 'F', '.', 'h', 't', 'm', 'l'],
  ['[', 'a', 'r', 'm', 'v', '7', '-', 'u', 'n', 'k', 'n', 'o', 'w', 'n', '-', 'l', 'i', 'n', 'u', 'x', '-', 'o', 'h', 'o', 's', ']', ':', ' ', 'h', 't', 't', 'p', 's', ':', '/', '/', 'd', 'o', 'c', 's', '.', 'r', 's', '/', 'p', 'l', 'a', 't', 'f', 'o', 'r', 'm', 's', '/', 'l', 'a', 't', 'e', 's', 't', '/', 'p', 'l', 'a', 't', 'f', 'o', 'r', 'm', 's', '/', 'p', 'l', 'a', 't', 'f', 'o', 'r', 'm', '/', 'c', 'o', 'n', 's', 't', 'a', 'n', 't', '.', 'A', 'R', 'M', 'V', '7', '_', 'U', 'N', 'K', 'N', 'O', 'W', 'N', '_', 'L', 'I', 'N', 'U', 'X', '_', 'O', 'H', 'O', 'S', '.', 'h', 't', 'm', 'l'],
  ['[', 'a', 'r', 'm', 'v', '7', '-', 'u', 'n', 'k', 'n', 'o', 'w', 'n', '-', 'l', 'i', 'n', 'u', 'x', '-', 'u', 'c', 'l', 'i', 'b', 'c', 'e', 'a', 'b', 'i', ']', ':', ' ', 'h', 't', 't', 'p', 's', ':', '/', '/', 'd', 'o', 'c', 's', '.', 'r', 's', '/', 'p', 'l', 'a', 't', 'f', 'o', 'r', 'm', 's', '/', 'l', 'a', 't', 'e', 's', 't', '/', 'p', 'l', 'a', 't', 'f', 'o', 'r', 'm', 's', '/', 'p', 'l', 'a', 't', 'f', 'o', 'r', 'm', '/', 'c', 'o', 'n', 's', 't', 'a', 'n', 't', '.', 'A', 'R', 'M', 'V', '7', '_', 'U', 'N', 'K', 'N', 'O', 'W', 'N', '_', 'L', 'I', 'N', 'U', 'X', '_', 'U', 'C', 'L', 'I', 'B', 'C', 'E', 'A', 'B', 'I', '.', 'h', 't', 'm', 'l'],
  ['[', 'a', 'r', 'm', 'v', '7', '-', 'u', 'n', 'k', 'n', 'o', 'w', 'n', '-', 'l', 'i', 'n', 'u', 'x', '-', 'u', 'c', 'l', 'i', 'b', 'c', 'e', 'a', 'b', 'i', 'h', 'f', ']', ':', ' ', 'h', 't', 't', 'p', 's', ':', '/', '/', 'd', 'o', 'c', 's', '.', 'r', 's', '/', 'p', 'l', 'a', 't', 'f', 'o', 'r', 'm', 's', '/', 'l', 'a', 't', 'e', 's', 't', '/', 'p', 'l', 'a', 't', 'f', 'o', 'r', 'm', 's', '/', 'p', 'l', 'a', 't', 'f', 'o', 'r', 'm', '/', 'c', 'o', 'n', 's', 't', 'a', 'n', 't', '.', 'A', 'R', 'M', 'V', '7', '_', 'U', 'N', 'K', 'N', 'O', 'W', 'N', '_', 'L', 'I', 'N', 'U', 'X', '_', 'U', 'C', 'L', 'I', 'B', 'C', 'E', 'A', 'B', 'I', 'H', 'F', '.', 'h', 't', 'm', 'l'],
  ['[', 'a', 'r', 'm', 'v', '7', '-', 'u', 'n', 'k', 'n', 'o', 'w', 'n', '-', 'n', 'e', 't', 'b', 's', 'd', '-', 'e', 'a', 'b', 'i', 'h', 'f', ']', ':', ' ', 'h', 't', 't', 'p', 's', ':', '/', '/', 'd', 'o', 'c', 's', '.', 'r', 's', '/', 'p', 'l', 'a', 't', 'f', 'o', 'r', 'm', 's', '/', 'l', 'a', 't', 'e', 's', 't', '/', 'p', 'l', 'a', 't', 'f', 'o', 'r', 'm', 's', '/', 'p', 'l', 'a', 't', 'f', 'o', 'r', 'm', '/', 'c', 'o', 'n', 's', 't', 'a', 'n', 't', '.', 'A', 'R', 'M', 'V', '7', '_', 'U', 'N', 'K', 'N', 'O', 'W', 'N', '_', 'N', 'E', 'T', 'B', 'S', 'D', '_', 'E', 'A', 'B', 'I', 'H', 'F', '.', 'h', 't', 'm', 'l'],
  ['[', 'a', 'r', 'm', 'v', '7', '-', 'u', 'n', 'k', 'n', 'o', 'w', 'n', '-', 't', 'r', 'u', 's', 't', 'y', ']', ':', ' ', 'h', 't', 't', 'p', 's', ':', '/', '/', 'd', 'o', 'c', 's', '.', 'r', 's', '/', 'p', 'l', 'a', 't', 'f', 'o', 'r', 'm', 's', '/', 'l', 'a', 't', 'e', 's', 't', '/', 'p', 'l', 'a', 't', 'f', 'o', 'r', 'm', 's', '/', 'p', 'l', 'a', 't', 'f', 'o', 'r', 'm', '/', 'c', 'o', 'n', 's', 't', 'a', 'n', 't', '.', 'A', 'R', 'M', 'V', '7', '_', 'U', 'N', 'K', 'N', 'O', 'W', 'N', '_', 'T', 'R', 'U', 'S', 'T', 'Y', '.', 'h', 't', 'm', 'l'],
  ['[', 'a', 'r', 'm', 'v', '7', '-', 'w', 'r', 's', '-', 'v', 'x', 'w', 'o', 'r', 'k', 's', '-', 'e', 'a', 'b', 'i', 'h', 'f', ']', ':', ' ', 'h', 't', 't', 'p', 's', ':', '/', '/', 'd', 'o', 'c', 's', '.', 'r', 's', '/', 'p', 'l', 'a', 't', 'f', 'o', 'r', 'm', 's', '/', 'l', 'a', 't', 'e', 's', 't', '/', 'p', 'l', 'a', 't', 'f', 'o', 'r', 'm', 's', '/', 'p', 'l', 'a', 't', 'f', 'o', 'r', 'm', '/', 'c', 'o', 'n', 's', 't', 'a', 'n', 't', '.', 'A', 'R', 'M', 'V', '7', '_', 'W', 'R', 'S', '_', 'V', 'X', 'W', 'O', 'R', 'K', 'S', '_', 'E', 'A', 'B', 'I', 'H', 'F', '.', 'h', 't', 'm', 'l'],
  ['[', 'a', 'r', 'm', 'v', '7', 'a', '-', 'k', 'm', 'c', '-', 's', 'o', 'l', 'i', 'd', '_', 'a', 's', 'p', '3', '-', 'e', 'a', 'b', 'i', ']', ':', ' ', 'h', 't', 't', 'p', 's', ':', '/', '/', 'd', 'o', 'c', 's', '.', 'r', 's', '/', 'p', 'l', 'a', 't', 'f', 'o', 'r', 'm', 's', '/', 'l', 'a', 't', 'e', 's', 't', '/', 'p', 'l', 'a', 't', 'f', 'o', 'r', 'm', 's', '/', 'p', 'l', 'a', 't', 'f', 'o', 'r', 'm', '/', 'c', 'o', 'n', 's', 't', 'a', 'n', 't', '.', 'A', 'R', 'M', 'V', '7', 'A', '_', 'K', 'M', 'C', '_', 'S', 'O', 'L', 'I', 'D', '_', 'A', 'S', 'P', '3', '_', 'E', 'A', 'B', 'I', '.', 'h', 't', 'm', 'l'],
  ['[', 'a', 'r', 'm', 'v', '7', 'a', '-', 'k', 'm', 'c', '-', 's', 'o', 'l', 'i', 'd', '_', 'a', 's', 'p', '3', '-', 'e', 'a', 'b', 'i', 'h', 'f', ']', ':', ' ', 'h', 't', 't', 'p', 's', ':', '/', '/', 'd', 'o', 'c', 's', '.', 'r', 's', '/', 'p', 'l', 'a', 't', 'f', 'o', 'r', 'm', 's', '/', 'l', 'a', 't', 'e', 's', 't', '/', 'p', 'l', 'a', 't', 'f', 'o', 'r', 'm', 's', '/', 'p', 'l', 'a', 't', 'f', 'o', 'r', 'm', '/', 'c', 'o', 'n', 's', 't', 'a', 'n', 't', '.', 'A', 'R', 'M', 'V', '7', 'A', '_', 'K', 'M', 'C', '_', 'S', 'O', 'L', 'I', 'D', '_', 'A', 'S', 'P', '3', '_', 'E', 'A', 'B', 'I', 'H', 'F', '.', 'h', 't', 'm', 'l'],
  ['[', 'a', 'r', 'm', 'v', '7', 'a', '-', 'n', 'o', 'n', 'e', '-', 'e', 'a', 'b', 'i', ']', ':', ' ', 'h', 't', 't', 'p', 's', ':', '/', '/', 'd', 'o', 'c', 's', '.', 'r', 's', '/', 'p', 'l', 'a', 't', 'f', 'o', 'r', 'm', 's', '/', 'l', 'a', 't', 'e', 's', 't', '/', 'p', 'l', 'a', 't', 'f', 'o', 'r', 'm', 's', '/', 'p', 'l', 'a', 't', 'f', 'o', 'r', 'm', '/', 'c', 'o', 'n', 's', 't', 'a', 'n', 't', '.', 'A', 'R', 'M', 'V', '7', 'A', '_', 'N', 'O', 'N', 'E', '_', 'E', 'A', 'B', 'I', '.', 'h', 't', 'm', 'l'],
  ['[', 'a', 'r', 'm', 'v', '7', 'a', '-', 'n', 'o', 'n', 'e', '-', 'e', 'a', 'b', 'i', 'h', 'f', ']', ':', ' ', 'h', 't', 't', 'p', 's', ':', '/', '/', 'd', 'o', 'c', 's', '.', 'r', 's', '/', 'p', 'l', 'a', 't', 'f', 'o', 'r', 'm', 's', '/', 'l', 'a', 't', 'e', 's', 't', '/', 'p', 'l', 'a', 't', 'f', 'o', 'r', 'm', 's', '/', 'p', 'l', 'a', 't', 'f', 'o', 'r', 'm', '/', 'c', 'o', 'n', 's', 't', 'a', 'n', 't', '.', 'A', 'R', 'M', 'V', '7', 'A', '_', 'N', 'O', 'N', 'E', '_', 'E', 'A', 'B', 'I', 'H', 'F', '.', 'h', 't', 'm', 'l'],
  ['[', 'a', 'r', 'm', 'v', '7', 'a', '-', 'n', 'u', 't', 't', 'x', '-', 'e', 'a', 'b', 'i', ']', ':', ' ', 'h', 't', 't', 'p', 's', ':', '/', '/', 'd', 'o', 'c', 's', '.', 'r', 's', '/', 'p', 'l', 'a', 't', 'f', 'o', 'r', 'm', 's', '/', 'l', 'a', 't', 'e', 's', 't', '/', 'p', 'l', 'a', 't', 'f', 'o', 'r', 'm', 's', '/', 'p', 'l', 'a', 't', 'f', 'o', 'r', 'm', '/', 'c', 'o', 'n', 's', 't', 'a', 'n', 't', '.', 'A', 'R', 'M', 'V', '7', 'A', '_', 'N', 'U', 'T', 'T', 'X', '_', 'E', 'A', 'B', 'I', '.', 'h', 't', 'm', 'l'],
  ['[', 'a', 'r', 'm', 'v', '7', 'a', '-', 'n', 'u', 't', 't', 'x', '-', 'e', 'a', 'b', 'i', 'h', 'f', ']', ':', ' ', 'h', 't', 't', 'p', 's', ':', '/', '/', 'd', 'o', 'c', 's', '.', 'r', 's', '/', 'p', 'l', 'a', 't', 'f', 'o', 'r', 'm', 's', '/', 'l', 'a', 't', 'e', 's', 't', '/', 'p', 'l', 'a', 't', 'f', 'o', 'r', 'm', 's', '/', 'p', 'l', 'a', 't', 'f', 'o', 'r', 'm', '/', 'c', 'o', 'n', 's', 't', 'a', 'n', 't', '.', 'A', 'R', 'M', 'V', '7', 'A', '_', 'N', 'U', 'T', 'T', 'X', '_', 'E', 'A', 'B', 'I', 'H', 'F', '.', 'h', 't', 'm', 'l'],
  ['[', 'a', 'r', 'm', 'v', '7', 'k', '-', 'a', 'p', 'p', 'l', 'e', '-', 'w', 'a', 't', 'c', 'h', 'o', 's', ']', ':', ' ', 'h', 't', 't', 'p', 's', ':', '/', '/', 'd', 'o', 'c', 's', '.', 'r', 's', '/', 'p', 'l', 'a', 't', 'f', 'o', 'r', 'm', 's', '/', 'l', 'a', 't', 'e', 's', 't', '/', 'p', 'l', 'a', 't', 'f', 'o', 'r', 'm', 's', '/', 'p', 'l', 'a', 't', 'f', 'o', 'r', 'm', '/', 'c', 'o', 'n', 's', 't', 'a', 'n', 't', '.', 'A', 'R', 'M', 'V', '7', 'K', '_', 'A', 'P', 'P', 'L', 'E', '_', 'W', 'A', 'T', 'C', 'H', 'O', 'S', '.', 'h', 't', 'm', 'l'],
  ['[', 'a', 'r', 'm', 'v', '7', 'r', '-', 'n', 'o', 'n', 'e', '-', 'e', 'a', 'b', 'i', ']', ':', ' ', 'h', 't', 't', 'p', 's', ':', '/', '/', 'd', 'o', 'c', 's', '.', 'r', 's', '/', 'p', 'l', 'a', 't', 'f', 'o', 'r', 'm', 's', '/', 'l', 'a', 't', 'e', 's', 't', '/', 'p', 'l', 'a', 't', 'f', 'o', 'r', 'm', 's', '/', 'p', 'l', 'a', 't', 'f', 'o', 'r', 'm', '/', 'c', 'o', 'n', 's', 't', 'a', 'n', 't', '.', 'A', 'R', 'M', 'V', '7', 'R', '_', 'N', 'O', 'N', 'E', '_', 'E', 'A', 'B', 'I', '.', 'h', 't', 'm', 'l'],
  ['[', 'a', 'r', 'm', 'v', '7', 'r', '-', 'n', 'o', 'n', 'e', '-', 'e', 'a', 'b', 'i', 'h', 'f', ']', ':', ' ', 'h', 't', 't', 'p', 's', ':', '/', '/', 'd', 'o', 'c', 's', '.', 'r', 's', '/', 'p', 'l', 'a', 't', 'f', 'o', 'r', 'm', 's', '/', 'l', 'a', 't', 'e', 's', 't', '/', 'p', 'l', 'a', 't', 'f', 'o', 'r', 'm', 's', '/', 'p', 'l', 'a', 't', 'f', 'o', 'r', 'm', '/', 'c', 'o', 'n', 's', 't', 'a', 'n', 't', '.', 'A', 'R', 'M', 'V', '7', 'R', '_', 'N', 'O', 'N', 'E', '_', 'E', 'A', 'B', 'I', 'H', 'F', '.', 'h', 't', 'm', 'l'],
  ['[', 'a', 'r', 'm', 'v', '7', 's', '-', 'a', 'p', 'p', 'l', 'e', '-', 'i', 'o', 's', ']', ':', ' ', 'h', 't', 't', 'p', 's', ':', '/', '/', 'd', 'o', 'c', 's', '.', 'r', 's', '/', 'p', 'l', 'a', 't', 'f', 'o', 'r', 'm', 's', '/', 'l', 'a', 't', 'e', 's', 't', '/', 'p', 'l', 'a', 't', 'f', 'o', 'r', 'm', 's', '/', 'p', 'l', 'a', 't', 'f', 'o', 'r', 'm', '/', 'c', 'o', 'n', 's', 't', 'a', 'n', 't', '.', 'A', 'R', 'M', 'V', '7', 'S', '_', 'A', 'P', 'P', 'L', 'E', '_', 'I', 'O', 'S', '.', 'h', 't', 'm', 'l'],
  ['[', 'a', 'r', 'm', 'v', '8', 'r', '-', 'n', 'o', 'n', 'e', '-', 'e', 'a', 'b', 'i', 'h', 'f', ']', ':', ' ', 'h', 't', 't', 'p', 's', ':', '/', '/', 'd', 'o', 'c', 's', '.', 'r', 's', '/', 'p', 'l', 'a', 't', 'f', 'o', 'r', 'm', 's', '/', 'l', 'a', 't', 'e', 's', 't', '/', 'p', 'l', 'a', 't', 'f', 'o', 'r', 'm', 's', '/', 'p', 'l', 'a', 't', 'f', 'o', 'r', 'm', '/', 'c', 'o', 'n', 's', 't', 'a', 'n', 't', '.', 'A', 'R', 'M', 'V', '8', 'R', '_', 'N', 'O', 'N', 'E', '_', 'E', 'A', 'B', 'I', 'H', 'F', '.', 'h', 't', 'm', 'l'],
  ['[', 'a', 'v', 'r', '-', 'n', 'o', 'n', 'e', ']', ':', ' ', 'h', 't', 't', 'p', 's', ':', '/', '/', 'd', 'o', 'c', 's', '.', 'r', 's', '/', 'p', 'l', 'a', 't', 'f', 'o', 'r', 'm', 's', '/', 'l', 'a', 't', 'e', 's', 't', '/', 'p', 'l', 'a', 't', 'f', 'o', 'r', 'm', 's', '/', 'p', 'l', 'a', 't', 'f', 'o', 'r', 'm', '/', 'c', 'o', 'n', 's', 't', 'a', 'n', 't', '.', 'A', 'V', 'R', '_', 'N', 'O', 'N', 'E', '.', 'h', 't', 'm', 'l'],
  ['[', 'b', 'p', 'f', 'e', 'b', '-', 'u', 'n', 'k', 'n', 'o', 'w', 'n', '-', 'n', 'o', 'n', 'e', ']', ':', ' ', 'h', 't', 't', 'p', 's', ':', '/', '/', 'd', 'o', 'c', 's', '.', 'r', 's', '/', 'p', 'l', 'a', 't', 'f', 'o', 'r', 'm', 's', '/', 'l', 'a', 't', 'e', 's', 't', '/', 'p', 'l', 'a', 't', 'f', 'o', 'r', 'm', 's', '/', 'p', 'l', 'a', 't', 'f', 'o', 'r', 'm', '/', 'c', 'o', 'n', 's', 't', 'a', 'n', 't', '.', 'B', 'P', 'F', 'E', 'B', '_', 'U', 'N', 'K', 'N', 'O', 'W', 'N', '_', 'N', 'O', 'N', 'E', '.', 'h', 't', 'm', 'l']]

/-- `platforms/README.md:513-537`. -/
def readme18 : List Str := [
  ['[', 'b', 'p', 'f', 'e', 'l', '-', 'u', 'n', 'k', 'n', 'o', 'w', 'n', '-', 'n', 'o', 'n', 'e', ']', ':', ' ', 'h', 't', 't', 'p', 's', ':', '/', '/', 'd', 'o', 'c', 's', '.', 'r', 's', '/', 'p', 'l', 'a', 't', 'f', 'o', 'r', 'm', 's', '/', 'l', 'a', 't', 'e', 's', 't', '/', 'p', 'l', 'a', 't', 'f', 'o', 'r', 'm', 's', '/', 'p', 'l', 'a', 't', 'f', 'o', 'r', 'm', '/', 'c', 'o', 'n', 's', 't', 'a', 'n', 't', '.', 'B', 'P', 'F', 'E', 'L', '_', 'U', 'N', 'K', 'N', 'O', 'W', 'N', '_', 'N', 'O', 'N', 'E', '.', 'h', 't', 'm', 'l'],
  ['[', 'c', 's', 'k', 'y', '-', 'u', 'n', 'k', 'n', 'o', 'w', 'n', '-', 'l', 'i', 'n', 'u', 'x', '-', 'g', 'n', 'u', 'a', 'b', 'i', 'v', '2', ']', ':', ' ', 'h', 't', 't', 'p', 's', ':', '/', '/', 'd', 'o', 'c', 's', '.', 'r', 's', '/', 'p', 'l', 'a', 't', 'f', 'o', 'r', 'm', 's', '/', 'l', 'a', 't', 'e', 's', 't', '/', 'p', 'l', 'a', 't', 'f', 'o', 'r', 'm', 's', '/', 'p', 'l', 'a', 't', 'f', 'o', 'r', 'm', '/', 'c', 'o', 'n', 's', 't', 'a', 'n', 't', '.', 'C', 'S', 'K', 'Y', '_', 'U', 'N', 'K', 'N', 'O', 'W', 'N', '_', 'L', 'I', 'N', 'U', 'X', '_', 'G', 'N', 'U', 'A', 'B', 'I', 'V', '2', '.', 'h', 't', 'm', 'l'],
  ['[', 'c', 's', 'k', 'y', '-', 'u', 'n', 'k', 'n', 'o', 'w', 'n', '-', 'l', 'i', 'n', 'u', 'x', '-', 'g', 'n', 'u', 'a', 'b', 'i', 'v', '2', 'h', 'f', ']', ':', ' ', 'h', 't', 't', 'p', 's', ':', '/', '/', 'd', 'o', 'c', 's', '.', 'r', 's', '/', 'p', 'l', 'a', 't', 'f', 'o', 'r', 'm', 's', '/', 'l', 'a', 't', 'e', 's', 't', '/', 'p', 'l', 'a', 't', 'f', 'o', 'r', 'm', 's', '/', 'p', 'l', 'a', 't', 'f', 'o', 'r', 'm', '/', 'c', 'o', 'n', 's', 't', 'a', 'n', 't', '.', 'C', 'S', 'K', 'Y', '_', 'U', 'N', 'K', 'N', 'O', 'W', 'N', '_', 'L', 'I', 'N', 'U', 'X', '_', 'G', 'N', 'U', 'A', 'B', 'I', 'V', '2', 'H', 'F', '.', 'h', 't', 'm', 'l'],
  ['[', 'h', 'e', 'x', 'a', 'g', 'o', 'n', '-', 'u', 'n', 'k', 'n', 'o', 'w', 'n', '-', 'l', 'i', 'n', 'u', 'x', '-', 'm', 'u', 's', 'l', ']', ':', ' ', 'h', 't', 't', 'p', 's', ':', '/', '/', 'd', 'o', 'c', 's', '.', 'r', 's', '/', 'p', 'l', 'a', 't', 'f', 'o', 'r', 'm', 's', '/', 'l', 'a', 't', 'e', 's', 't', '/', 'p', 'l', 'a', 't', 'f', 'o', 'r', 'm', 's', '/', 'p', 'l', 'a', 't', 'f', 'o', 'r', 'm', '/', 'c', 'o', 'n', 's', 't', 'a', 'n', 't', '.', 'H', 'E', 'X', 'A', 'G', 'O', 'N', '_', 'U', 'N', 'K', 'N', 'O', 'W', 'N', '_', 'L', 'I', 'N', 'U', 'X', '_', 'M', 'U', 'S', 'L', '.', 'h', 't', 'm', 'l'],
  ['[', 'h', 'e', 'x', 'a', 'g', 'o', 'n', '-', 'u', 'n', 'k', 'n', 'o', 'w', 'n', '-', 'n', 'o', 'n', 'e', '-', 'e', 'l', 'f', ']', ':', ' ', 'h', 't', 't', 'p', 's', ':', '/', '/', 'd', 'o', 'c', 's', '.', 'r', 's', '/', 'p', 'l', 'a', 't', 'f', 'o', 'r', 'm', 's', '/', 'l', 'a', 't', 'e', 's', 't', '/', 'p', 'l', 'a', 't', 'f', 'o', 'r', 'm', 's', '/', 'p', 'l', 'a', 't', 'f', 'o', 'r', 'm', '/', 'c', 'o', 'n', 's', 't', 'a', 'n', 't', '.', 'H', 'E', 'X', 'A', 'G', 'O', 'N', '_', 'U', 'N', 'K', 'N', 'O', 'W', 'N', '_', 'N', 'O', 'N', 'E', '_', 'E', 'L', 'F', '.', 'h', 't', 'm', 'l'],
  ['[', 'h', 'e', 'x', 'a', 'g', 'o', 'n', '-', 'u', 'n', 'k', 'n', 'o', 'w', 'n', '-', 'q', 'u', 'r', 't', ']', ':', ' ', 'h', 't', 't', 'p', 's', ':', '/', '/', 'd', 'o', 'c', 's', '.', 'r', 's', '/', 'p', 'l', 'a', 't', 'f', 'o', 'r', 'm', 's', '/', 'l', 'a', 't', 'e', 's', 't', '/', 'p', 'l', 'a', 't', 'f', 'o', 'r', 'm', 's', '/', 'p', 'l', 'a', 't', 'f', 'o', 'r', 'm', '/', 'c', 'o', 'n', 's', 't', 'a', 'n', 't', '.', 'H', 'E', 'X', 'A', 'G', 'O', 'N', '_', 'U', 'N', 'K', 'N', 'O', 'W', 'N', '_', 'Q', 'U', 'R', 'T', '.', 'h', 't', 'm', 'l'],
  ['[', 'i', '3', '8', '6', '-', 'a', 'p', 'p', 'l', 'e', '-', 'i', 'o', 's', ']', ':', ' ', 'h', 't', 't', 'p', 's', ':', '/', '/', 'd', 'o', 'c', 's', '.', 'r', 's', '/', 'p', 'l', 'a', 't', 'f', 'o', 'r', 'm', 's', '/', 'l', 'a', 't', 'e', 's', 't', '/', 'p', 'l', 'a', 't', 'f', 'o', 'r', 'm', 's', '/', 'p', 'l', 'a', 't', 'f', 'o', 'r', 'm', '/', 'c', 'o', 'n', 's', 't', 'a', 'n', 't', '.', 'I', '3', '8', '6', '_', 'A', 'P', 'P', 'L', 'E', '_', 'I', 'O', 'S', '.', 'h', 't', 'm', 'l'],
  ['[', 'i', '5', '8', '6', '-', 'u', 'n', 'k', 'n', 'o', 'w', 'n', '-', 'l', 'i', 'n', 'u', 'x', '-', 'g', 'n', 'u', ']', ':', ' ', 'h', 't', 't', 'p', 's', ':', '/', '/', 'd', 'o', 'c', 's', '.', 'r', 's', '/', 'p', 'l', 'a', 't', 'f', 'o', 'r', 'm', 's', '/', 'l', 'a', 't', 'e', 's', 't', '/', 'p', 'l', 'a', 't', 'f', 'o', 'r', 'm', 's', '/', 'p', 'l', 'a', 't', 'f', 'o', 'r', 'm', '/', 'c', 'o', 'n', 's', 't', 'a', 'n', 't', '.', 'I', '5', '8', '6', '_', 'U', 'N', 'K', 'N', 'O', 'W', 'N', '_', 'L', 'I', 'N', 'U', 'X', '_', 'G', 'N', 'U', '.', 'h', 't', 'm', 'l'],
  ['[', 'i', '5', '8', '6', '-', 'u', 'n', 'k', 'n', 'o', 'w', 'n', '-', 'l', 'i', 'n', 'u', 'x', '-', 'm', 'u', 's', 'l', ']', ':', ' ', 'h', 't', 't', 'p', 's', ':', '/', '/', 'd', 'o', 'c', 's', '.', 'r', 's', '/', 'p', 'l', 'a', 't', 'f', 'o', 'r', 'm', 's', '/', 'l', 'a', 't', 'e', 's', 't', '/', 'p', 'l', 'a', 't', 'f', 'o', 'r', 'm', 's', '/', 'p', 'l', 'a', 't', 'f', 'o', 'r', 'm', '/', 'c', 'o', 'n', 's', 't', 'a', 'n', 't', '.', 'I', '5', '8', '6', '_', 'U', 'N', 'K', 'N', 'O', 'W', 'N', '_', 'L', 'I', 'N', 'U', 'X', '_', 'M', 'U', 'S', 'L', '.', 'h', 't', 'm', 'l'],
  ['[', 'i', '5', '8', '6', '-', 'u', 'n', 'k', 'n', 'o', 'w', 'n', '-', 'n', 'e', 't', 'b', 's', 'd', ']', ':', ' ', 'h', 't', 't', 'p', 's', ':', '/', '/', 'd', 'o', 'c', 's', '.', 'r', 's', '/', 'p', 'l', 'a', 't', 'f', 'o', 'r', 'm', 's', '/', 'l', 'a', 't', 'e', 's', 't', '/', 'p', 'l', 'a', 't', 'f', 'o', 'r', 'm', 's', '/', 'p', 'l', 'a', 't', 'f', 'o', 'r', 'm', '/', 'c', 'o', 'n', 's', 't', 'a', 'n', 't', '.', 'I', '5', '8', '6', '_', 'U', 'N', 'K', 'N', 'O', 'W', 'N', '_', 'N', 'E', 'T', 'B', 'S', 'D', '.', 'h', 't', 'm', 'l'],
  ['[', 'i', '5', '8', '6', '-', 'u', 'n', 'k', 'n', 'o', 'w', 'n', '-', 'r', 'e', 'd', 'o', 'x', ']', ':', ' ', 'h', 't', 't', 'p', 's', ':', '/', '/', 'd', 'o', 'c', 's', '.', 'r', 's', '/', 'p', 'l', 'a', 't', 'f', 'o', 'r', 'm', 's', '/', 'l', 'a', 't', 'e', 's', 't', '/', 'p', 'l', 'a', 't', 'f', 'o', 'r', 'm', 's', '/', 'p', 'l', 'a', 't', 'f', 'o', 'r', 'm', '/', 'c', 'o', 'n', 's', 't', 'a', 'n', 't', '.', 'I', '5', '8', '6', '_', 'U', 'N', 'K', 'N', 'O', 'W', 'N', '_', 'R', 'E', 'D', 'O', 'X', '.', 'h', 't', 'm', 'l'],
  ['[', 'i', '6', '8', '6', '-', 'a', 'p', 'p', 'l', 'e', '-', 'd', 'a', 'r', 'w', 'i', 'n', ']', ':', ' ', 'h', 't', 't', 'p', 's', ':', '/', '/', 'd', 'o', 'c', 's', '.', 'r', 's', '/', 'p', 'l', 'a', 't', 'f', 'o', 'r', 'm', 's', '/', 'l', 'a', 't', 'e', 's', 't', '/', 'p', 'l', 'a', 't', 'f', 'o', 'r', 'm', 's', '/', 'p', 'l', 'a', 't', 'f', 'o', 'r', 'm', '/', 'c', 'o', 'n', 's', 't', 'a', 'n', 't', '.', 'I', '6', '8', '6', '_', 'A', 'P', 'P', 'L', 'E', '_', 'D', 'A', 'R', 'W', 'I', 'N', '.', 'h', 't', 'm', 'l'],
  ['[', 'i', '6', '8', '6', '-', 'l', 'i', 'n', 'u', 'x', '-', 'a', 'n', 'd', 'r', 'o', 'i', 'd', ']', ':', ' ', 'h', 't', 't', 'p', 's', ':', '/', '/', 'd', 'o', 'c', 's', '.', 'r', 's', '/', 'p', 'l', 'a', 't', 'f', 'o', 'r', 'm', 's', '/', 'l', 'a', 't', 'e', 's', 't', '/', 'p', 'l', 'a', 't', 'f', 'o', 'r', 'm', 's', '/', 'p', 'l', 'a', 't', 'f', 'o', 'r', 'm', '/', 'c', 'o', 'n', 's', 't', 'a', 'n', 't', '.', 'I', '6', '8', '6', '_', 'L', 'I', 'N', 'U', 'X', '_', 'A', 'N', 'D', 'R', 'O', 'I', 'D', '.', 'h', 't', 'm', 'l'],
  ['[', 'i', '6', '8', '6', '-', 'o', 'e', '-', 'l', 'i', 'n', 'u', 'x', '-', 'g', 'n', 'u', ']', ':', ' ', 'h', 't', 't', 'p', 's', ':', '/', '/', 'd', 'o', 'c', 's', '.', 'r', 's', '/', 'p', 'l', 'a', 't', 'f', 'o', 'r', 'm', 's', '/', 'l', 'a', 't', 'e', 's', 't', '/', 'p', 'l', 'a', 't', 'f', 'o', 'r', 'm', 's', '/', 'p', 'l', 'a', 't', 'f', 'o', 'r', 'm', '/', 'c', 'o', 'n', 's', 't', 'a', 'n', 't', '.', 'I', '6', '8', '6', '_', 'O', 'E', '_', 'L', 'I', 'N', 'U', 'X', '_', 'G', 'N', 'U', '.', 'h', 't', 'm', 'l'],
  ['[', 'i', '6', '8', '6', '-', 'p', 'c', '-', 'n', 't', 'o', '-', 'q', 'n', 'x', '7', '0', '0', ']', ':', ' ', 'h', 't', 't', 'p', 's', ':', '/', '/', 'd', 'o', 'c', 's', '.', 'r', 's', '/', 'p', 'l', 'a', 't', 'f', 'o', 'r', 'm', 's', '/', 'l', 'a', 't', 'e', 's', 't', '/', 'p', 'l', 'a', 't', 'f', 'o', 'r', 'm', 's', '/', 'p', 'l', 'a', 't', 'f', 'o', 'r', 'm', '/', 'c', 'o', 'n', 's', 't', 'a', 'n', 't', '.', 'I', '6', '8', '6', '_', 'P', 'C', '_', 'N', 'T', 'O', '_', 'Q', 'N', 'X', '7', '0', '0', '.', 'h', 't', 'm', 'l'],
  ['[', 'i', '6', '8', '6', '-', 'p', 'c', '-', 'w', 'i', 'n', 'd', 'o', 'w', 's', '-', 'g', 'n', 'u', ']', ':', ' ', 'h', 't', 't', 'p', 's', ':', '/', '/', 'd', 'o', 'c', 's', '.', 'r', 's', '/', 'p', 'l', 'a', 't', 'f', 'o', 'r', 'm', 's', '/', 'l', 'a', 't', 'e', 's', 't', '/', 'p', 'l', 'a', 't', 'f', 'o', 'r', 'm', 's', '/', 'p', 'l', 'a', 't', 'f', 'o', 'r', 'm', '/', 'c', 'o', 'n', 's', 't', 'a', 'n', 't', '.', 'I', '6', '8', '6', '_', 'P', 'C', '_', 'W', 'I', 'N', 'D', 'O', 'W', 'S', '_', 'G', 'N', 'U', '.', 'h', 't', 'm', 'l'],
  ['[', 'i', '6', '8', '6', '-', 'p', 'c', '-', 'w', 'i', 'n', 'd', 'o', 'w', 's', '-', 'g', 'n', 'u', 'l', 'l', 'v', 'm', ']', ':', ' ', 'h', 't', 't', 'p', 's', ':', '/', '/', 'd', 'o', 'c', 's', '.', 'r', 's', '/', 'p', 'l', 'a', 't', 'f', 'o', 'r', 'm', 's', '/', 'l', 'a', 't', 'e', 's', 't', '/', 'p', 'l', 'a', 't', 'f', 'o', 'r', 'm', 's', '/', 'p', 'l', 'a', 't', 'f', 'o', 'r', 'm', '/', 'c', 'o', 'n', 's', 't', 'a', 'n', 't', '.', 'I', '6', '8', '6', '_', 'P', 'C', '_', 'W', 'I', 'N', 'D', 'O', 'W', 'S', '_', 'G', 'N', 'U', 'L', 'L', 'V', 'M', '.', 'h', 't', 'm', 'l'],
  ['[', 'i', '6', '8', '6', '-', 'p', 'c', '-', 'w', 'i', 'n', 'd', 'o', 'w', 's', '-', 'm', 's', 'v', 'c', ']', ':', ' ', 'h', 't', 't', 'p', 's', ':', '/', '/', 'd', 'o', 'c', 's', '.', 'r', 's', '/', 'p', 'l', 'a', 't', 'f', 'o', 'r', 'm', 's', '/', 'l', 'a', 't', 'e', 's', 't', '/', 'p', 'l', 'a', 't', 'f', 'o', 'r', 'm', 's', '/', 'p', 'l', 'a', 't', 'f', 'o', 'r', 'm', '/', 'c', 'o', 'n', 's', 't', 'a', 'n', 't', '.', 'I', '6', '8', '6', '_', 'P', 'C', '_', 'W', 'I', 'N', 'D', 'O', 'W', 'S', '_', 'M', 'S', 'V', 'C', '.', 'h', 't', 'm', 'l'],
  ['[', 'i', '6', '8', '6', '-', 'u', 'n', 'k', 'n', 'o', 'w', 'n', '-', 'f', 'r', 'e', 'e', 'b', 's', 'd', ']', ':', ' ', 'h', 't', 't', 'p', 's', ':', '/', '/', 'd', 'o', 'c', 's', '.', 'r', 's', '/', 'p', 'l', 'a', 't', 'f', 'o', 'r', 'm', 's', '/', 'l', 'a', 't', 'e', 's', 't', '/', 'p', 'l', 'a', 't', 'f', 'o', 'r', 'm', 's', '/', 'p', 'l', 'a', 't', 'f', 'o', 'r', 'm', '/', 'c', 'o', 'n', 's', 't', 'a', 'n', 't', '.', 'I', '6', '8', '6', '_', 'U', 'N', 'K', 'N', 'O', 'W', 'N', '_', 'F', 'R', 'E', 'E', 'B', 'S', 'D', '.', 'h', 't', 'm', 'l'],
  ['[', 'i', '6', '8', '6', '-', 'u', 'n', 'k', 'n', 'o', 'w', 'n', '-', 'h', 'a', 'i', 'k', 'u', ']', ':', ' ', 'h', 't', 't', 'p', 's', ':', '/', '/', 'd', 'o', 'c', 's', '.', 'r', 's', '/', 'p', 'l', 'a', 't', 'f', 'o', 'r', 'm', 's', '/', 'l', 'a', 't', 'e', 's', 't', '/', 'p', 'l', 'a', 't', 'f', 'o', 'r', 'm', 's', '/', 'p', 'l', 'a', 't', 'f', 'o', 'r', 'm', '/', 'c', 'o', 'n', 's', 't', 'a', 'n', 't', '.', 'I', '6', '8', '6', '_', 'U', 'N', 'K', 'N', 'O', 'W', 'N', '_', 'H', 'A', 'I', 'K', 'U', '.', 'h', 't', 'm', 'l'],
  ['[', 'i', '6', '8', '6', '-', 'u', 'n', 'k', 'n', 'o', 'w', 'n', '-', 'h', 'e', 'l', 'e', 'n', 'o', 's', ']', ':', ' ', 'h', 't', 't', 'p', 's', ':', '/', '/', 'd', 'o', 'c', 's', '.', 'r', 's', '/', 'p', 'l', 'a', 't', 'f', 'o', 'r', 'm', 's', '/', 'l', 'a', 't', 'e', 's', 't', '/', 'p', 'l', 'a', 't', 'f', 'o', 'r', 'm', 's', '/', 'p', 'l', 'a', 't', 'f', 'o', 'r', 'm', '/', 'c', 'o', 'n', 's', 't', 'a', 'n', 't', '.', 'I', '6', '8', '6', '_', 'U', 'N', 'K', 'N', 'O', 'W', 'N', '_', 'H', 'E', 'L', 'E', 'N', 'O', 'S', '.', 'h', 't', 'm', 'l'],
  ['[', 'i', '6', '8', '6', '-', 'u', 'n', 'k', 'n', 'o', 'w', 'n', '-', 'h', 'u', 'r', 'd', '-', 'g', 'n', 'u', ']', ':', ' ', 'h', 't', 't', 'p', 's', ':', '/', '/', 'd', 'o', 'c', 's', '.', 'r', 's', '/', 'p', 'l', 'a', 't', 'f', 'o', 'r', 'm', 's', '/', 'l', 'a', 't', 'e', 's', 't', '/', 'p', 'l', 'a', 't', 'f', 'o', 'r', 'm', 's', '/', 'p', 'l', 'a', 't', 'f', 'o', 'r', 'm', '/', 'c', 'o', 'n', 's', 't', 'a', 'n', 't', '.', 'I', '6', '8', '6', '_', 'U', 'N', 'K', 'N', 'O', 'W', 'N', '_', 'H', 'U', 'R', 'D', '_', 'G', 'N', 'U', '.', 'h', 't', 'm', 'l'],
  ['[', 'i', '6', '8', '6', '-', 'u', 'n', 'k', 'n', 'o', 'w', 'n', '-', 'l', 'i', 'n', 'u', 'x', '-', 'g', 'n', 'u', ']', ':', ' ', 'h', 't', 't', 'p', 's', ':', '/', '/', 'd', 'o', 'c', 's', '.', 'r', 's', '/', 'p', 'l', 'a', 't', 'f', 'o', 'r', 'm', 's', '/', 'l', 'a', 't', 'e', 's', 't', '/', 'p', 'l', 'a', 't', 'f', 'o', 'r', 'm', 's', '/', 'p', 'l', 'a', 't', 'f', 'o', 'r', 'm', '/', 'c', 'o', 'n', 's', 't', 'a', 'n', 't', '.', 'I', '6', '8', '6', '_', 'U', 'N', 'K', 'N', 'O', 'W', 'N', '_', 'L', 'I', 'N', 'U', 'X', '_', 'G', 'N', 'U', '.', 'h', 't', 'm', 'l'],
  ['[', 'i', '6', '8', '6', '-', 'u', 'n', 'k', 'n', 'o', 'w', 'n', '-', 'l', 'i', 'n', 'u', 'x', '-', 'm', 'u', 's', 'l', ']', ':', ' ', 'h', 't', 't', 'p', 's', ':', '/', '/', 'd', 'o', 'c', 's', '.', 'r', 's', '/', 'p', 'l', 'a', 't', 'f', 'o', 'r', 'm', 's', '/', 'l', 'a', 't', 'e', 's', 't', '/', 'p', 'l', 'a', 't', 'f', 'o', 'r', 'm', 's', '/', 'p', 'l', 'a', 't', 'f', 'o', 'r', 'm', '/', 'c', 'o', 'n', 's', 't', 'a', 'n', 't', '.', 'I', '6', '8', '6', '_', 'U', 'N', 'K', 'N', 'O', 'W', 'N', '_', 'L', 'I', 'N', 'U', 'X', '_', 'M', 'U', 'S', 'L', '.', 'h', 't', 'm', 'l'],
  ['[', 'i', '6', '8', '6', '-', 'u', 'n', 'k', 'n', 'o', 'w', 'n', '-', 'n', 'e', 't', 'b', 's', 'd', ']', ':', ' ', 'h', 't', 't', 'p', 's', ':', '/', '/', 'd', 'o', 'c', 's', '.', 'r', 's', '/', 'p', 'l', 'a', 't', 'f', 'o', 'r', 'm', 's', '/', 'l', 'a', 't', 'e', 's', 't', '/', 'p', 'l', 'a', 't', 'f', 'o', 'r', 'm', 's', '/', 'p', 'l', 'a', 't', 'f', 'o', 'r', 'm', '/', 'c', 'o', 'n', 's', 't', 'a', 'n', 't', '.', 'I', '6', '8', '6', '_', 'U', 'N', 'K', 'N', 'O', 'W', 'N', '_', 'N', 'E', 'T', 'B', 'S', 'D', '.', 'h', 't', 'm', 'l']]

/-- `platforms/README.md:538-562`. -/
def readme19 : List Str := [
  ['[', 'i', '6', '8', '6', '-', 'u', 'n', 'k', 'n', 'o', 'w', 'n', '-', 'o', 'p', 'e', 'n', 'b', 's', 'd', ']', ':', ' ', 'h', 't', 't', 'p', 's', ':', '/', '/', 'd', 'o', 'c', 's', '.', 'r', 's', '/', 'p', 'l', 'a', 't', 'f', 'o', 'r', 'm', 's', '/', 'l', 'a', 't', 'e', 's', 't', '/', 'p', 'l', 'a', 't', 'f', 'o', 'r', 'm', 's', '/', 'p', 'l', 'a', 't', 'f', 'o', 'r', 'm', '/', 'c', 'o', 'n', 's', 't', 'a', 'n', 't', '.', 'I', '6', '8', '6', '_', 'U', 'N', 'K', 'N', 'O', 'W', 'N', '_', 'O', 'P', 'E', 'N', 'B', 'S', 'D', '.', 'h', 't', 'm', 'l'],
  ['[', 'i', '6', '8', '6', '-', 'u', 'n', 'k', 'n', 'o', 'w', 'n', '-', 'u', 'e', 'f', 'i', ']', ':', ' ', 'h', 't', 't', 'p', 's', ':', '/', '/', 'd', 'o', 'c', 's', '.', 'r', 's', '/', 'p', 'l', 'a', 't', 'f', 'o', 'r', 'm', 's', '/', 'l', 'a', 't', 'e', 's', 't', '/', 'p', 'l', 'a', 't', 'f', 'o', 'r', 'm', 's', '/', 'p', 'l', 'a', 't', 'f', 'o', 'r', 'm', '/', 'c', 'o', 'n', 's', 't', 'a', 'n', 't', '.', 'I', '6', '8', '6', '_', 'U', 'N', 'K', 'N', 'O', 'W', 'N', '_', 'U', 'E', 'F', 'I', '.', 'h', 't', 'm', 'l'],
  ['[', 'i', '6', '8', '6', '-', 'u', 'w', 'p', '-', 'w', 'i', 'n', 'd', 'o', 'w', 's', '-', 'g', 'n', 'u', ']', ':', ' ', 'h', 't', 't', 'p', 's', ':', '/', '/', 'd', 'o', 'c', 's', '.', 'r', 's', '/', 'p', 'l', 'a', 't', 'f', 'o', 'r', 'm', 's', '/', 'l', 'a', 't', 'e', 's', 't', '/', 'p', 'l', 'a', 't', 'f', 'o', 'r', 'm', 's', '/', 'p', 'l', 'a', 't', 'f', 'o', 'r', 'm', '/', 'c', 'o', 'n', 's', 't', 'a', 'n', 't', '.', 'I', '6', '8', '6', '_', 'U', 'W', 'P', '_', 'W', 'I', 'N', 'D', 'O', 'W', 'S', '_', 'G', 'N', 'U', '.', 'h', 't', 'm', 'l'],
  ['[', 'i', '6', '8', '6', '-', 'u', 'w', 'p', '-', 'w', 'i', 'n', 'd', 'o', 'w', 's', '-', 'm', 's', 'v', 'c', ']', ':', ' ', 'h', 't', 't', 'p', 's', ':', '/', '/', 'd', 'o', 'c', 's', '.', 'r', 's', '/', 'p', 'l', 'a', 't', 'f', 'o', 'r', 'm', 's', '/', 'l', 'a', 't', 'e', 's', 't', '/', 'p', 'l', 'a', 't', 'f', 'o', 'r', 'm', 's', '/', 'p', 'l', 'a', 't', 'f', 'o', 'r', 'm', '/', 'c', 'o', 'n', 's', 't', 'a', 'n', 't', '.', 'I', '6', '8', '6', '_', 'U', 'W', 'P', '_', 'W', 'I', 'N', 'D', 'O', 'W', 'S', '_', 'M', 'S', 'V', 'C', '.', 'h', 't', 'm', 'l'],
  ['[', 'i', '6', '8', '6', '-', 'w', 'i', 'n', '7', '-', 'w', 'i', 'n', 'd', 'o', 'w', 's', '-', 'g', 'n', 'u', ']', ':', ' ', 'h', 't', 't', 'p', 's', ':', '/', '/', 'd', 'o', 'c', 's', '.', 'r', 's', '/', 'p', 'l', 'a', 't', 'f', 'o', 'r', 'm', 's', '/', 'l', 'a', 't', 'e', 's', 't', '/', 'p', 'l', 'a', 't', 'f', 'o', 'r', 'm', 's', '/', 'p', 'l', 'a', 't', 'f', 'o', 'r', 'm', '/', 'c', 'o', 'n', 's', 't', 'a', 'n', 't', '.', 'I', '6', '8', '6', '_', 'W', 'I', 'N', '7', '_', 'W', 'I', 'N', 'D', 'O', 'W', 'S', '_', 'G', 'N', 'U', '.', 'h', 't', 'm', 'l'],
  ['[', 'i', '6', '8', '6', '-', 'w', 'i', 'n', '7', '-', 'w', 'i', 'n', 'd', 'o', 'w', 's', '-', 'm', 's', 'v', 'c', ']', ':', ' ', 'h', 't', 't', 'p', 's', ':', '/', '/', 'd', 'o', 'c', 's', '.', 'r', 's', '/', 'p', 'l', 'a', 't', 'f', 'o', 'r', 'm', 's', '/', 'l', 'a', 't', 'e', 's', 't', '/', 'p', 'l', 'a', 't', 'f', 'o', 'r', 'm', 's', '/', 'p', 'l', 'a', 't', 'f', 'o', 'r', 'm', '/', 'c', 'o', 'n', 's', 't', 'a', 'n', 't', '.', 'I', '6', '8', '6', '_', 'W', 'I', 'N', '7', '_', 'W', 'I', 'N', 'D', 'O', 'W', 'S', '_', 'M', 'S', 'V', 'C', '.', 'h', 't', 'm', 'l'],
  ['[', 'i', '6', '8', '6', '-', 'w', 'r', 's', '-', 'v', 'x', 'w', 'o', 'r', 'k', 's', ']', ':', ' ', 'h', 't', 't', 'p', 's', ':', '/', '/', 'd', 'o', 'c', 's', '.', 'r', 's', '/', 'p', 'l', 'a', 't', 'f', 'o', 'r', 'm', 's', '/', 'l', 'a', 't', 'e', 's', 't', '/', 'p', 'l', 'a', 't', 'f', 'o', 'r', 'm', 's', '/', 'p', 'l', 'a', 't', 'f', 'o', 'r', 'm', '/', 'c', 'o', 'n', 's', 't', 'a', 'n', 't', '.', 'I', '6', '8', '6', '_', 'W', 'R', 'S', '_', 'V', 'X', 'W', 'O', 'R', 'K', 'S', '.', 'h', 't', 'm', 'l'],
  ['[', 'l', 'o', 'o', 'n', 'g', 'a', 'r', 'c', 'h', '3', '2', '-', 'u', 'n', 'k', 'n', 'o', 'w', 'n', '-', 'n', 'o', 'n', 'e', ']', ':', ' ', 'h', 't', 't', 'p', 's', ':', '/', '/', 'd', 'o', 'c', 's', '.', 'r', 's', '/', 'p', 'l', 'a', 't', 'f', 'o', 'r', 'm', 's', '/', 'l', 'a', 't', 'e', 's', 't', '/', 'p', 'l', 'a', 't', 'f', 'o', 'r', 'm', 's', '/', 'p', 'l', 'a', 't', 'f', 'o', 'r', 'm', '/', 'c', 'o', 'n', 's', 't', 'a', 'n', 't', '.', 'L', 'O', 'O', 'N', 'G', 'A', 'R', 'C', 'H', '3', '2', '_', 'U', 'N', 'K', 'N', 'O', 'W', 'N', '_', 'N', 'O', 'N', 'E', '.', 'h', 't', 'm', 'l'],
  ['[', 'l', 'o', 'o', 'n', 'g', 'a', 'r', 'c', 'h', '3', '2', '-', 'u', 'n', 'k', 'n', 'o', 'w', 'n', '-', 'n', 'o', 'n', 'e', '-', 's', 'o', 'f', 't', 'f', 'l', 'o', 'a', 't', ']', ':', ' ', 'h', 't', 't', 'p', 's', ':', '/', '/', 'd', 'o', 'c', 's', '.', 'r', 's', '/', 'p', 'l', 'a', 't', 'f', 'o', 'r', 'm', 's', '/', 'l', 'a', 't', 'e', 's', 't', '/', 'p', 'l', 'a', 't', 'f', 'o', 'r', 'm', 's', '/', 'p', 'l', 'a', 't', 'f', 'o', 'r', 'm', '/', 'c', 'o', 'n', 's', 't', 'a', 'n', 't', '.', 'L', 'O', 'O', 'N', 'G', 'A', 'R', 'C', 'H', '3', '2', '_', 'U', 'N', 'K', 'N', 'O', 'W', 'N', '_', 'N', 'O', 'N', 'E', '_', 'S', 'O', 'F', 'T', 'F', 'L', 'O', 'A', 'T', '.', 'h', 't', 'm', 'l'],
  ['[', 'l', 'o', 'o', 'n', 'g', 'a', 'r', 'c', 'h', '6', '4', '-', 'u', 'n', 'k', 'n', 'o', 'w', 'n', '-', 'l', 'i', 'n', 'u', 'x', '-', 'g', 'n', 'u', ']', ':', ' ', 'h', 't', 't', 'p', 's', ':', '/', '/', 'd', 'o', 'c', 's', '.', 'r', 's', '/', 'p', 'l', 'a', 't', 'f', 'o', 'r', 'm', 's', '/', 'l', 'a', 't', 'e', 's', 't', '/', 'p', 'l', 'a', 't', 'f', 'o', 'r', 'm', 's', '/', 'p', 'l', 'a', 't', 'f', 'o', 'r', 'm', '/', 'c', 'o', 'n', 's', 't', 'a', 'n', 't', '.', 'L', 'O', 'O', 'N', 'G', 'A', 'R', 'C', 'H', '6', '4', '_', 'U', 'N', 'K', 'N', 'O', 'W', 'N', '_', 'L', 'I', 'N', 'U', 'X', '_', 'G', 'N', 'U', '.', 'h', 't', 'm', 'l'],
  ['[', 'l', 'o', 'o', 'n', 'g', 'a', 'r', 'c', 'h', '6', '4', '-', 'u', 'n', 'k', 'n', 'o', 'w', 'n', '-', 'l', 'i', 'n', 'u', 'x', '-', 'm', 'u', 's', 'l', ']', ':', ' ', 'h', 't', 't', 'p', 's', ':', '/', '/', 'd', 'o', 'c', 's', '.', 'r', 's', '/', 'p', 'l', 'a', 't', 'f', 'o', 'r', 'm', 's', '/', 'l', 'a', 't', 'e', 's', 't', '/', 'p', 'l', 'a', 't', 'f', 'o', 'r', 'm', 's', '/', 'p', 'l', 'a', 't', 'f', 'o', 'r', 'm', '/', 'c', 'o', 'n', 's', 't', 'a', 'n', 't', '.', 'L', 'O', 'O', 'N', 'G', 'A', 'R', 'C', 'H', '6', '4', '_', 'U', 'N', 'K', 'N', 'O', 'W', 'N', '_', 'L', 'I', 'N', 'U', 'X', '_', 'M', 'U', 'S', 'L', '.', 'h', 't', 'm', 'l'],
  ['[', 'l', 'o', 'o', 'n', 'g', 'a', 'r', 'c', 'h', '6', '4', '-', 'u', 'n', 'k', 'n', 'o', 'w', 'n', '-', 'l', 'i', 'n', 'u', 'x', '-', 'o', 'h', 'o', 's', ']', ':', ' ', 'h', 't', 't', 'p', 's', ':', '/', '/', 'd', 'o', 'c', 's', '.', 'r', 's', '/', 'p', 'l', 'a', 't', 'f', 'o', 'r', 'm', 's', '/', 'l', 'a', 't', 'e', 's', 't', '/', 'p', 'l', 'a', 't', 'f', 'o', 'r', 'm', 's', '/', 'p', 'l', 'a', 't', 'f', 'o', 'r', 'm', '/', 'c', 'o', 'n', 's', 't', 'a', 'n', 't', '.', 'L', 'O', 'O', 'N', 'G', 'A', 'R', 'C', 'H', '6', '4', '_', 'U', 'N', 'K', 'N', 'O', 'W', 'N', '_', 'L', 'I', 'N', 'U', 'X', '_', 'O', 'H', 'O', 'S', '.', 'h', 't', 'm', 'l'],
  ['[', 'l', 'o', 'o', 'n', 'g', 'a', 'r', 'c', 'h', '6', '4', '-', 'u', 'n', 'k', 'n', 'o', 'w', 'n', '-', 'n', 'o', 'n', 'e', ']', ':', ' ', 'h', 't', 't', 'p', 's', ':', '/', '/', 'd', 'o', 'c', 's', '.', 'r', 's', '/', 'p', 'l', 'a', 't', 'f', 'o', 'r', 'm', 's', '/', 'l', 'a', 't', 'e', 's', 't', '/', 'p', 'l', 'a', 't', 'f', 'o', 'r', 'm', 's', '/', 'p', 'l', 'a', 't', 'f', 'o', 'r', 'm', '/', 'c', 'o', 'n', 's', 't', 'a', 'n', 't', '.', 'L', 'O', 'O', 'N', 'G', 'A', 'R', 'C', 'H', '6', '4', '_', 'U', 'N', 'K', 'N', 'O', 'W', 'N', '_', 'N', 'O', 'N', 'E', '.', 'h', 't', 'm', 'l'],
  ['[', 'l', 'o', 'o', 'n', 'g', 'a', 'r', 'c', 'h', '6', '4', '-', 'u', 'n', 'k', 'n', 'o', 'w', 'n', '-', 'n', 'o', 'n', 'e', '-', 's', 'o', 'f', 't', 'f', 'l', 'o', 'a', 't', ']', ':', ' ', 'h', 't', 't', 'p', 's', ':', '/', '/', 'd', 'o', 'c', 's', '.', 'r', 's', '/', 'p', 'l', 'a', 't', 'f', 'o', 'r', 'm', 's', '/', 'l', 'a', 't', 'e', 's', 't', '/', 'p', 'l', 'a', 't', 'f', 'o', 'r', 'm', 's', '/', 'p', 'l', 'a', 't', 'f', 'o', 'r', 'm', '/', 'c', 'o', 'n', 's', 't', 'a', 'n', 't', '.', 'L', 'O', 'O', 'N', 'G', 'A', 'R', 'C', 'H', '6', '4', '_', 'U', 'N', 'K', 'N', 'O', 'W', 'N', '_', 'N', 'O', 'N', 'E', '_', 'S', 'O', 'F', 'T', 'F', 'L', 'O', 'A', 'T', '.', 'h', 't', 'm', 'l'],
  ['[', 'm', '6', '8', 'k', '-', 'u', 'n', 'k', 'n', 'o', 'w', 'n', '-', 'l', 'i', 'n', 'u', 'x', '-', 'g', 'n', 'u', ']', ':', ' ', 'h', 't', 't', 'p', 's', ':', '/', '/', 'd', 'o', 'c', 's', '.', 'r', 's', '/', 'p', 'l', 'a', 't', 'f', 'o', 'r', 'm', 's', '/', 'l', 'a', 't', 'e', 's', 't', '/', 'p', 'l', 'a', 't', 'f', 'o', 'r', 'm', 's', '/', 'p', 'l', 'a', 't', 'f', 'o', 'r', 'm', '/', 'c', 'o', 'n', 's', 't', 'a', 'n', 't', '.', 'M', '6', '8', 'K', '_', 'U', 'N', 'K', 'N', 'O', 'W', 'N', '_', 'L', 'I', 'N', 'U', 'X', '_', 'G', 'N', 'U', '.', 'h', 't', 'm', 'l'],
  ['[', 'm', '6', '8', 'k', '-', 'u', 'n', 'k', 'n', 'o', 'w', 'n', '-', 'n', 'o', 'n', 'e', '-', 'e', 'l', 'f', ']', ':', ' ', 'h', 't', 't', 'p', 's', ':', '/', '/', 'd', 'o', 'c', 's', '.', 'r', 's', '/', 'p', 'l', 'a', 't', 'f', 'o', 'r', 'm', 's', '/', 'l', 'a', 't', 'e', 's', 't', '/', 'p', 'l', 'a', 't', 'f', 'o', 'r', 'm', 's', '/', 'p', 'l', 'a', 't', 'f', 'o', 'r', 'm', '/', 'c', 'o', 'n', 's', 't', 'a', 'n', 't', '.', 'M', '6', '8', 'K', '_', 'U', 'N', 'K', 'N', 'O', 'W', 'N', '_', 'N', 'O', 'N', 'E', '_', 'E', 'L', 'F', '.', 'h', 't', 'm', 'l'],
  ['[', 'm', 'i', 'p', 's', '-', 'm', 't', 'i', '-', 'n', 'o', 'n', 'e', '-', 'e', 'l', 'f', ']', ':', ' ', 'h', 't', 't', 'p', 's', ':', '/', '/', 'd', 'o', 'c', 's', '.', 'r', 's', '/', 'p', 'l', 'a', 't', 'f', 'o', 'r', 'm', 's', '/', 'l', 'a', 't', 'e', 's', 't', '/', 'p', 'l', 'a', 't', 'f', 'o', 'r', 'm', 's', '/', 'p', 'l', 'a', 't', 'f', 'o', 'r', 'm', '/', 'c', 'o', 'n', 's', 't', 'a', 'n', 't', '.', 'M', 'I', 'P', 'S', '_', 'M', 'T', 'I', '_', 'N', 'O', 'N', 'E', '_', 'E', 'L', 'F', '.', 'h', 't', 'm', 'l'],
  ['[', 'm', 'i', 'p', 's', '-', 'u', 'n', 'k', 'n', 'o', 'w', 'n', '-', 'l', 'i', 'n', 'u', 'x', '-', 'g', 'n', 'u', ']', ':', ' ', 'h', 't', 't', 'p', 's', ':', '/', '/', 'd', 'o', 'c', 's', '.', 'r', 's', '/', 'p', 'l', 'a', 't', 'f', 'o', 'r', 'm', 's', '/', 'l', 'a', 't', 'e', 's', 't', '/', 'p', 'l', 'a', 't', 'f', 'o', 'r', 'm', 's', '/', 'p', 'l', 'a', 't', 'f', 'o', 'r', 'm', '/', 'c', 'o', 'n', 's', 't', 'a', 'n', 't', '.', 'M', 'I', 'P', 'S', '_', 'U', 'N', 'K', 'N', 'O', 'W', 'N', '_', 'L', 'I', 'N', 'U', 'X', '_', 'G', 'N', 'U', '.', 'h', 't', 'm', 'l'],
  ['[', 'm', 'i', 'p', 's', '-', 'u', 'n', 'k', 'n', 'o', 'w', 'n', '-', 'l', 'i', 'n', 'u', 'x', '-', 'm', 'u', 's', 'l', ']', ':', ' ', 'h', 't', 't', 'p', 's', ':', '/', '/', 'd', 'o', 'c', 's', '.', 'r', 's', '/', 'p', 'l', 'a', 't', 'f', 'o', 'r', 'm', 's', '/', 'l', 'a', 't', 'e', 's', 't', '/', 'p', 'l', 'a', 't', 'f', 'o', 'r', 'm', 's', '/', 'p', 'l', 'a', 't', 'f', 'o', 'r', 'm', '/', 'c', 'o', 'n', 's', 't', 'a', 'n', 't', '.', 'M', 'I', 'P', 'S', '_', 'U', 'N', 'K', 'N', 'O', 'W', 'N', '_', 'L', 'I', 'N', 'U', 'X', '_', 'M', 'U', 'S', 'L', '.', 'h', 't', 'm', 'l'],
  ['[', 'm', 'i', 'p', 's', '-', 'u', 'n', 'k', 'n', 'o', 'w', 'n', '-', 'l', 'i', 'n', 'u', 'x', '-', 'u', 'c', 'l', 'i', 'b', 'c', ']', ':', ' ', 'h', 't', 't', 'p', 's', ':', '/', '/', 'd', 'o', 'c', 's', '.', 'r', 's', '/', 'p', 'l', 'a', 't', 'f', 'o', 'r', 'm', 's', '/', 'l', 'a', 't', 'e', 's', 't', '/', 'p', 'l', 'a', 't', 'f', 'o', 'r', 'm', 's', '/', 'p', 'l', 'a', 't', 'f', 'o', 'r', 'm', '/', 'c', 'o', 'n', 's', 't', 'a', 'n', 't', '.', 'M', 'I', 'P', 'S', '_', 'U', 'N', 'K', 'N', 'O', 'W', 'N', '_', 'L', 'I', 'N', 'U', 'X', '_', 'U', 'C', 'L', 'I', 'B', 'C', '.', 'h', 't', 'm', 'l'],
  ['[', 'm', 'i', 'p', 's', '6', '4', '-', 'o', 'p', 'e', 'n', 'w', 'r', 't', '-', 'l', 'i', 'n', 'u', 'x', '-', 'm', 'u', 's', 'l', ']', ':', ' ', 'h', 't', 't', 'p', 's', ':', '/', '/', 'd', 'o', 'c', 's', '.', 'r', 's', '/', 'p', 'l', 'a', 't', 'f', 'o', 'r', 'm', 's', '/', 'l', 'a', 't', 'e', 's', 't', '/', 'p', 'l', 'a', 't', 'f', 'o', 'r', 'm', 's', '/', 'p', 'l', 'a', 't', 'f', 'o', 'r', 'm', '/', 'c', 'o', 'n', 's', 't', 'a', 'n', 't', '.', 'M', 'I', 'P', 'S', '6', '4', '_', 'O', 'P', 'E', 'N', 'W', 'R', 'T', '_', 'L', 'I', 'N', 'U', 'X', '_', 'M', 'U', 'S', 'L', '.', 'h', 't', 'm', 'l'],
  ['[', 'm', 'i', 'p', 's', '6', '4', '-', 'u', 'n', 'k', 'n', 'o', 'w', 'n', '-', 'l', 'i', 'n', 'u', 'x', '-', 'g', 'n', 'u', 'a', 'b', 'i', '6', '4', ']', ':', ' ', 'h', 't', 't', 'p', 's', ':', '/', '/', 'd', 'o', 'c', 's', '.', 'r', 's', '/', 'p', 'l', 'a', 't', 'f', 'o', 'r', 'm', 's', '/', 'l', 'a', 't', 'e', 's', 't', '/', 'p', 'l', 'a', 't', 'f', 'o', 'r', 'm', 's', '/', 'p', 'l', 'a', 't', 'f', 'o', 'r', 'm', '/', 'c', 'o', 'n', 's', 't', 'a', 'n', 't', '.', 'M', 'I', 'P', 'S', '6', '4', '_', 'U', 'N', 'K', 'N', 'O', 'W', 'N', '_', 'L', 'I', 'N', 'U', 'X', '_', 'G', 'N', 'U', 'A', 'B', 'I', '6', '4', '.', 'h', 't', 'm', 'l'],
  ['[', 'm', 'i', 'p', 's', '6', '4', '-', 'u', 'n', 'k', 'n', 'o', 'w', 'n', '-', 'l', 'i', 'n', 'u', 'x', '-', 'm', 'u', 's', 'l', 'a', 'b', 'i', '6', '4', ']', ':', ' ', 'h', 't', 't', 'p', 's', ':', '/', '/', 'd', 'o', 'c', 's', '.', 'r', 's', '/', 'p', 'l', 'a', 't', 'f', 'o', 'r', 'm', 's', '/', 'l', 'a', 't', 'e', 's', 't', '/', 'p', 'l', 'a', 't', 'f', 'o', 'r', 'm', 's', '/', 'p', 'l', 'a', 't', 'f', 'o', 'r', 'm', '/', 'c', 'o', 'n', 's', 't', 'a', 'n', 't', '.', 'M', 'I', 'P', 'S', '6', '4', '_', 'U', 'N', 'K', 'N', 'O', 'W', 'N', '_', 'L', 'I', 'N', 'U', 'X', '_', 'M', 'U', 'S', 'L', 'A', 'B', 'I', '6', '4', '.', 'h', 't', 'm', 'l'],
  ['[', 'm', 'i', 'p', 's', '6', '4', 'e', 'l', '-', 'u', 'n', 'k', 'n', 'o', 'w', 'n', '-', 'l', 'i', 'n', 'u', 'x', '-', 'g', 'n', 'u', 'a', 'b', 'i', '6', '4', ']', ':', ' ', 'h', 't', 't', 'p', 's', ':', '/', '/', 'd', 'o', 'c', 's', '.', 'r', 's', '/', 'p', 'l', 'a', 't', 'f', 'o', 'r', 'm', 's', '/', 'l', 'a', 't', 'e', 's', 't', '/', 'p', 'l', 'a', 't', 'f', 'o', 'r', 'm', 's', '/', 'p', 'l', 'a', 't', 'f', 'o', 'r', 'm', '/', 'c', 'o', 'n', 's', 't', 'a', 'n', 't', '.', 'M', 'I', 'P', 'S', '6', '4', 'E', 'L', '_', 'U', 'N', 'K', 'N', 'O', 'W', 'N', '_', 'L', 'I', 'N', 'U', 'X', '_', 'G', 'N', 'U', 'A', 'B', 'I', '6', '4', '.', 'h', 't', 'm', 'l'],
  ['[', 'm', 'i', 'p', 's', '6', '4', 'e', 'l', '-', 'u', 'n', 'k', 'n', 'o', 'w', 'n', '-', 'l', 'i', 'n', 'u', 'x', '-', 'm', 'u', 's', 'l', 'a', 'b', 'i', '6', '4', ']', ':', ' ', 'h', 't', 't', 'p', 's', ':', '/', '/', 'd', 'o', 'c', 's', '.', 'r', 's', '/', 'p', 'l', 'a', 't', 'f', 'o', 'r', 'm', 's', '/', 'l', 'a', 't', 'e', 's', 't', '/', 'p', 'l', 'a', 't', 'f', 'o', 'r', 'm', 's', '/', 'p', 'l', 'a', 't', 'f', 'o', 'r', 'm', '/', 'c', 'o', 'n', 's', 't', 'a', 'n', 't', '.', 'M', 'I', 'P', 'S', '6', '4', 'E', 'L', '_', 'U', 'N', 'K', 'N', 'O', 'W', 'N', '_', 'L', 'I', 'N', 'U', 'X', '_', 'M', 'U', 'S', 'L', 'A', 'B', 'I', '6', '4', '.', 'h', 't', 'm', 'l']]

/-- `platforms/README.md:563-587`. -/
def readme20 : List Str := [
  ['[', 'm', 'i', 'p', 's', 'e', 'l', '-', 'm', 't', 'i', '-', 'n', 'o', 'n', 'e', '-', 'e', 'l', 'f', ']', ':', ' ', 'h', 't', 't', 'p', 's', ':', '/', '/', 'd', 'o', 'c', 's', '.', 'r', 's', '/', 'p', 'l', 'a', 't', 'f', 'o', 'r', 'm', 's', '/', 'l', 'a', 't', 'e', 's', 't', '/', 'p', 'l', 'a', 't', 'f', 'o', 'r', 'm', 's', '/', 'p', 'l', 'a', 't', 'f', 'o', 'r', 'm', '/', 'c', 'o', 'n', 's', 't', 'a', 'n', 't', '.', 'M', 'I', 'P', 'S', 'E', 'L', '_', 'M', 'T', 'I', '_', 'N', 'O', 'N', 'E', '_', 'E', 'L', 'F', '.', 'h', 't', 'm', 'l'],
  ['[', 'm', 'i', 'p', 's', 'e', 'l', '-', 's', 'o', 'n', 'y', '-', 'p', 's', 'p', ']', ':', ' ', 'h', 't', 't', 'p', 's', ':', '/', '/', 'd', 'o', 'c', 's', '.', 'r', 's', '/', 'p', 'l', 'a', 't', 'f', 'o', 'r', 'm', 's', '/', 'l', 'a', 't', 'e', 's', 't', '/', 'p', 'l', 'a', 't', 'f', 'o', 'r', 'm', 's', '/', 'p', 'l', 'a', 't', 'f', 'o', 'r', 'm', '/', 'c', 'o', 'n', 's', 't', 'a', 'n', 't', '.', 'M', 'I', 'P', 'S', 'E', 'L', '_', 'S', 'O', 'N', 'Y', '_', 'P', 'S', 'P', '.', 'h', 't', 'm', 'l'],
  ['[', 'm', 'i', 'p', 's', 'e', 'l', '-', 's', 'o', 'n', 'y', '-', 'p', 's', 'x', ']', ':', ' ', 'h', 't', 't', 'p', 's', ':', '/', '/', 'd', 'o', 'c', 's', '.', 'r', 's', '/', 'p', 'l', 'a', 't', 'f', 'o', 'r', 'm', 's', '/', 'l', 'a', 't', 'e', 's', 't', '/', 'p', 'l', 'a', 't', 'f', 'o', 'r', 'm', 's', '/', 'p', 'l', 'a', 't', 'f', 'o', 'r', 'm', '/', 'c', 'o', 'n', 's', 't', 'a', 'n', 't', '.', 'M', 'I', 'P', 'S', 'E', 'L', '_', 'S', 'O', 'N', 'Y', '_', 'P', 'S', 'X', '.', 'h', 't', 'm', 'l'],
  ['[', 'm', 'i', 'p', 's', 'e', 'l', '-', 'u', 'n', 'k', 'n', 'o', 'w', 'n', '-', 'l', 'i', 'n', 'u', 'x', '-', 'g', 'n', 'u', ']', ':', ' ', 'h', 't', 't', 'p', 's', ':', '/', '/', 'd', 'o', 'c', 's', '.', 'r', 's', '/', 'p', 'l', 'a', 't', 'f', 'o', 'r', 'm', 's', '/', 'l', 'a', 't', 'e', 's', 't', '/', 'p', 'l', 'a', 't', 'f', 'o', 'r', 'm', 's', '/', 'p', 'l', 'a', 't', 'f', 'o', 'r', 'm', '/', 'c', 'o', 'n', 's', 't', 'a', 'n', 't', '.', 'M', 'I', 'P', 'S', 'E', 'L', '_', 'U', 'N', 'K', 'N', 'O', 'W', 'N', '_', 'L', 'I', 'N', 'U', 'X', '_', 'G', 'N', 'U', '.', 'h', 't', 'm', 'l'],
  ['[', 'm', 'i', 'p', 's', 'e', 'l', '-', 'u', 'n', 'k', 'n', 'o', 'w', 'n', '-', 'l', 'i', 'n', 'u', 'x', '-', 'm', 'u', 's', 'l', ']', ':', ' ', 'h', 't', 't', 'p', 's', ':', '/', '/', 'd', 'o', 'c', 's', '.', 'r', 's', '/', 'p', 'l', 'a', 't', 'f', 'o', 'r', 'm', 's', '/', 'l', 'a', 't', 'e', 's', 't', '/', 'p', 'l', 'a', 't', 'f', 'o', 'r', 'm', 's', '/', 'p', 'l', 'a', 't', 'f', 'o', 'r', 'm', '/', 'c', 'o', 'n', 's', 't', 'a', 'n', 't', '.', 'M', 'I', 'P', 'S', 'E', 'L', '_', 'U', 'N', 'K', 'N', 'O', 'W', 'N', '_', 'L', 'I', 'N', 'U', 'X', '_', 'M', 'U', 'S', 'L', '.', 'h', 't', 'm', 'l'],
  ['[', 'm', 'i', 'p', 's', 'e', 'l', '-', 'u', 'n', 'k', 'n', 'o', 'w', 'n', '-', 'l', 'i', 'n', 'u', 'x', '-', 'u', 'c', 'l', 'i', 'b', 'c', ']', ':', ' ', 'h', 't', 't', 'p', 's', ':', '/', '/', 'd', 'o', 'c', 's', '.', 'r', 's', '/', 'p', 'l', 'a', 't', 'f', 'o', 'r', 'm', 's', '/', 'l', 'a', 't', 'e', 's', 't', '/', 'p', 'l', 'a', 't', 'f', 'o', 'r', 'm', 's', '/', 'p', 'l', 'a', 't', 'f', 'o', 'r', 'm', '/', 'c', 'o', 'n', 's', 't', 'a', 'n', 't', '.', 'M', 'I', 'P', 'S', 'E', 'L', '_', 'U', 'N', 'K', 'N', 'O', 'W', 'N', '_', 'L', 'I', 'N', 'U', 'X', '_', 'U', 'C', 'L', 'I', 'B', 'C', '.', 'h', 't', 'm', 'l'],
  ['[', 'm', 'i', 'p', 's', 'e', 'l', '-', 'u', 'n', 'k', 'n', 'o', 'w', 'n', '-', 'n', 'e', 't', 'b', 's', 'd', ']', ':', ' ', 'h', 't', 't', 'p', 's', ':', '/', '/', 'd', 'o', 'c', 's', '.', 'r', 's', '/', 'p', 'l', 'a', 't', 'f', 'o', 'r', 'm', 's', '/', 'l', 'a', 't', 'e', 's', 't', '/', 'p', 'l', 'a', 't', 'f', 'o', 'r', 'm', 's', '/', 'p', 'l', 'a', 't', 'f', 'o', 'r', 'm', '/', 'c', 'o', 'n', 's', 't', 'a', 'n', 't', '.', 'M', 'I', 'P', 'S', 'E', 'L', '_', 'U', 'N', 'K', 'N', 'O', 'W', 'N', '_', 'N', 'E', 'T', 'B', 'S', 'D', '.', 'h', 't', 'm', 'l'],
  ['[', 'm', 'i', 'p', 's', 'e', 'l', '-', 'u', 'n', 'k', 'n', 'o', 'w', 'n', '-', 'n', 'o', 'n', 'e', ']', ':', ' ', 'h', 't', 't', 'p', 's', ':', '/', '/', 'd', 'o', 'c', 's', '.', 'r', 's', '/', 'p', 'l', 'a', 't', 'f', 'o', 'r', 'm', 's', '/', 'l', 'a', 't', 'e', 's', 't', '/', 'p', 'l', 'a', 't', 'f', 'o', 'r', 'm', 's', '/', 'p', 'l', 'a', 't', 'f', 'o', 'r', 'm', '/', 'c', 'o', 'n', 's', 't', 'a', 'n', 't', '.', 'M', 'I', 'P', 'S', 'E', 'L', '_', 'U', 'N', 'K', 'N', 'O', 'W', 'N', '_', 'N', 'O', 'N', 'E', '.', 'h', 't', 'm', 'l'],
  ['[', 'm', 'i', 'p', 's', 'i', 's', 'a', '3', '2', 'r', '6', '-', 'u', 'n', 'k', 'n', 'o', 'w', 'n', '-', 'l', 'i', 'n', 'u', 'x', '-', 'g', 'n', 'u', ']', ':', ' ', 'h', 't', 't', 'p', 's', ':', '/', '/', 'd', 'o', 'c', 's', '.', 'r', 's', '/', 'p', 'l', 'a', 't', 'f', 'o', 'r', 'm', 's', '/', 'l', 'a', 't', 'e', 's', 't', '/', 'p', 'l', 'a', 't', 'f', 'o', 'r', 'm', 's', '/', 'p', 'l', 'a', 't', 'f', 'o', 'r', 'm', '/', 'c', 'o', 'n', 's', 't', 'a', 'n', 't', '.', 'M', 'I', 'P', 'S', 'I', 'S', 'A', '3', '2', 'R', '6', '_', 'U', 'N', 'K', 'N', 'O', 'W', 'N', '_', 'L', 'I', 'N', 'U', 'X', '_', 'G', 'N', 'U', '.', 'h', 't', 'm', 'l'],
  ['[', 'm', 'i', 'p', 's', 'i', 's', 'a', '3', '2', 'r', '6', 'e', 'l', '-', 'u', 'n', 'k', 'n', 'o', 'w', 'n', '-', 'l', 'i', 'n', 'u', 'x', '-', 'g', 'n', 'u', ']', ':', ' ', 'h', 't', 't', 'p', 's', ':', '/', '/', 'd', 'o', 'c', 's', '.', 'r', 's', '/', 'p', 'l', 'a', 't', 'f', 'o', 'r', 'm', 's', '/', 'l', 'a', 't', 'e', 's', 't', '/', 'p', 'l', 'a', 't', 'f', 'o', 'r', 'm', 's', '/', 'p', 'l', 'a', 't', 'f', 'o', 'r', 'm', '/', 'c', 'o', 'n', 's', 't', 'a', 'n', 't', '.', 'M', 'I', 'P', 'S', 'I', 'S', 'A', '3', '2', 'R', '6', 'E', 'L', '_', 'U', 'N', 'K', 'N', 'O', 'W', 'N', '_', 'L', 'I', 'N', 'U', 'X', '_', 'G', 'N', 'U', '.', 'h', 't', 'm', 'l'],
  ['[', 'm', 'i', 'p', 's', 'i', 's', 'a', '6', '4', 'r', '6', '-', 'u', 'n', 'k', 'n', 'o', 'w', 'n', '-', 'l', 'i', 'n', 'u', 'x', '-', 'g', 'n', 'u', 'a', 'b', 'i', '6', '4', ']', ':', ' ', 'h', 't', 't', 'p', 's', ':', '/', '/', 'd', 'o', 'c', 's', '.', 'r', 's', '/', 'p', 'l', 'a', 't', 'f', 'o', 'r', 'm', 's', '/', 'l', 'a', 't', 'e', 's', 't', '/', 'p', 'l', 'a', 't', 'f', 'o', 'r', 'm', 's', '/', 'p', 'l', 'a', 't', 'f', 'o', 'r', 'm', '/', 'c', 'o', 'n', 's', 't', 'a', 'n', 't', '.', 'M', 'I', 'P', 'S', 'I', 'S', 'A', '6', '4', 'R', '6', '_', 'U', 'N', 'K', 'N', 'O', 'W', 'N', '_', 'L', 'I', 'N', 'U', 'X', '_', 'G', 'N', 'U', 'A', 'B', 'I', '6', '4', '.', 'h', 't', 'm', 'l'],
  ['[', 'm', 'i', 'p', 's', 'i', 's', 'a', '6', '4', 'r', '6', 'e', 'l', '-', 'u', 'n', 'k', 'n', 'o', 'w', 'n', '-', 'l', 'i', 'n', 'u', 'x', '-', 'g', 'n', 'u', 'a', 'b', 'i', '6', '4', ']', ':', ' ', 'h', 't', 't', 'p', 's', ':', '/', '/', 'd', 'o', 'c', 's', '.', 'r', 's', '/', 'p', 'l', 'a', 't', 'f', 'o', 'r', 'm', 's', '/', 'l', 'a', 't', 'e', 's', 't', '/', 'p', 'l', 'a', 't', 'f', 'o', 'r', 'm', 's', '/', 'p', 'l', 'a', 't', 'f', 'o', 'r', 'm', '/', 'c', 'o', 'n', 's', 't', 'a', 'n', 't', '.', 'M', 'I', 'P', 'S', 'I', 'S', 'A', '6', '4', 'R', '6', 'E', 'L', '_', 'U', 'N', 'K', 'N', 'O', 'W', 'N', '_', 'L', 'I', 'N', 'U', 'X', '_', 'G', 'N', 'U', 'A', 'B', 'I', '6', '4', '.', 'h', 't', 'm', 'l'],
  ['[', 'm', 's', 'p', '4', '3', '0', '-', 'n', 'o', 'n', 'e', '-', 'e', 'l', 'f', ']', ':', ' ', 'h', 't', 't', 'p', 's', ':', '/', '/', 'd', 'o', 'c', 's', '.', 'r', 's', '/', 'p', 'l', 'a', 't', 'f', 'o', 'r', 'm', 's', '/', 'l', 'a', 't', 'e', 's', 't', '/', 'p', 'l', 'a', 't', 'f', 'o', 'r', 'm', 's', '/', 'p', 'l', 'a', 't', 'f', 'o', 'r', 'm', '/', 'c', 'o', 'n', 's', 't', 'a', 'n', 't', '.', 'M', 'S', 'P', '4', '3', '0', '_', 'N', 'O', 'N', 'E', '_', 'E', 'L', 'F', '.', 'h', 't', 'm', 'l'],
  ['[', 'n', 'v', 'p', 't', 'x', '6', '4', '-', 'n', 'v', 'i', 'd', 'i', 'a', '-', 'c', 'u', 'd', 'a', ']', ':', ' ', 'h', 't', 't', 'p', 's', ':', '/', '/', 'd', 'o', 'c', 's', '.', 'r', 's', '/', 'p', 'l', 'a', 't', 'f', 'o', 'r', 'm', 's', '/', 'l', 'a', 't', 'e', 's', 't', '/', 'p', 'l', 'a', 't', 'f', 'o', 'r', 'm', 's', '/', 'p', 'l', 'a', 't', 'f', 'o', 'r', 'm', '/', 'c', 'o', 'n', 's', 't', 'a', 'n', 't', '.', 'N', 'V', 'P', 'T', 'X', '6', '4', '_', 'N', 'V', 'I', 'D', 'I', 'A', '_', 'C', 'U', 'D', 'A', '.', 'h', 't', 'm', 'l'],
  ['[', 'p', 'o', 'w', 'e', 'r', 'p', 'c', '-', 'u', 'n', 'k', 'n', 'o', 'w', 'n', '-', 'f', 'r', 'e', 'e', 'b', 's', 'd', ']', ':', ' ', 'h', 't', 't', 'p', 's', ':', '/', '/', 'd', 'o', 'c', 's', '.', 'r', 's', '/', 'p', 'l', 'a', 't', 'f', 'o', 'r', 'm', 's', '/', 'l', 'a', 't', 'e', 's', 't', '/', 'p', 'l', 'a', 't', 'f', 'o', 'r', 'm', 's', '/', 'p', 'l', 'a', 't', 'f', 'o', 'r', 'm', '/', 'c', 'o', 'n', 's', 't', 'a', 'n', 't', '.', 'P', 'O', 'W', 'E', 'R', 'P', 'C', '_', 'U', 'N', 'K', 'N', 'O', 'W', 'N', '_', 'F', 'R', 'E', 'E', 'B', 'S', 'D', '.', 'h', 't', 'm', 'l'],
  ['[', 'p', 'o', 'w', 'e', 'r', 'p', 'c', '-', 'u', 'n', 'k', 'n', 'o', 'w', 'n', '-', 'h', 'e', 'l', 'e', 'n', 'o', 's', ']', ':', ' ', 'h', 't', 't', 'p', 's', ':', '/', '/', 'd', 'o', 'c', 's', '.', 'r', 's', '/', 'p', 'l', 'a', 't', 'f', 'o', 'r', 'm', 's', '/', 'l', 'a', 't', 'e', 's', 't', '/', 'p', 'l', 'a', 't', 'f', 'o', 'r', 'm', 's', '/', 'p', 'l', 'a', 't', 'f', 'o', 'r', 'm', '/', 'c', 'o', 'n', 's', 't', 'a', 'n', 't', '.', 'P', 'O', 'W', 'E', 'R', 'P', 'C', '_', 'U', 'N', 'K', 'N', 'O', 'W', 'N', '_', 'H', 'E', 'L', 'E', 'N', 'O', 'S', '.', 'h', 't', 'm', 'l'],
  ['[', 'p', 'o', 'w', 'e', 'r', 'p', 'c', '-', 'u', 'n', 'k', 'n', 'o', 'w', 'n', '-', 'l', 'i', 'n', 'u', 'x', '-', 'g', 'n', 'u', ']', ':', ' ', 'h', 't', 't', 'p', 's', ':', '/', '/', 'd', 'o', 'c', 's', '.', 'r', 's', '/', 'p', 'l', 'a', 't', 'f', 'o', 'r', 'm', 's', '/', 'l', 'a', 't', 'e', 's', 't', '/', 'p', 'l', 'a', 't', 'f', 'o', 'r', 'm', 's', '/', 'p', 'l', 'a', 't', 'f', 'o', 'r', 'm', '/', 'c', 'o', 'n', 's', 't', 'a', 'n', 't', '.', 'P', 'O', 'W', 'E', 'R', 'P', 'C', '_', 'U', 'N', 'K', 'N', 'O', 'W', 'N', '_', 'L', 'I', 'N', 'U', 'X', '_', 'G', 'N', 'U', '.', 'h', 't', 'm', 'l'],
  ['[', 'p', 'o', 'w', 'e', 'r', 'p', 'c', '-', 'u', 'n', 'k', 'n', 'o', 'w', 'n', '-', 'l', 'i', 'n', 'u', 'x', '-', 'g', 'n', 'u', 's', 'p', 'e', ']', ':', ' ', 'h', 't', 't', 'p', 's', ':', '/', '/', 'd', 'o', 'c', 's', '.', 'r', 's', '/', 'p', 'l', 'a', 't', 'f', 'o', 'r', 'm', 's', '/', 'l', 'a', 't', 'e', 's', 't', '/', 'p', 'l', 'a', 't', 'f', 'o', 'r', 'm', 's', '/', 'p', 'l', 'a', 't', 'f', 'o', 'r', 'm', '/', 'c', 'o', 'n', 's', 't', 'a', 'n', 't', '.', 'P', 'O', 'W', 'E', 'R', 'P', 'C', '_', 'U', 'N', 'K', 'N', 'O', 'W', 'N', '_', 'L', 'I', 'N', 'U', 'X', '_', 'G', 'N', 'U', 'S', 'P', 'E', '.', 'h', 't', 'm', 'l'],
  ['[', 'p', 'o', 'w', 'e', 'r', 'p', 'c', '-', 'u', 'n', 'k', 'n', 'o', 'w', 'n', '-', 'l', 'i', 'n', 'u', 'x', '-', 'm', 'u', 's', 'l', ']', ':', ' ', 'h', 't', 't', 'p', 's', ':', '/', '/', 'd', 'o', 'c', 's', '.', 'r', 's', '/', 'p', 'l', 'a', 't', 'f', 'o', 'r', 'm', 's', '/', 'l', 'a', 't', 'e', 's', 't', '/', 'p', 'l', 'a', 't', 'f', 'o', 'r', 'm', 's', '/', 'p', 'l', 'a', 't', 'f', 'o', 'r', 'm', '/', 'c', 'o', 'n', 's', 't', 'a', 'n', 't', '.', 'P', 'O', 'W', 'E', 'R', 'P', 'C', '_', 'U', 'N', 'K', 'N', 'O', 'W', 'N', '_', 'L', 'I', 'N', 'U', 'X', '_', 'M', 'U', 'S', 'L', '.', 'h', 't', 'm', 'l'],
  ['[', 'p', 'o', 'w', 'e', 'r', 'p', 'c', '-', 'u', 'n', 'k', 'n', 'o', 'w', 'n', '-', 'l', 'i', 'n', 'u', 'x', '-', 'm', 'u', 's', 'l', 's', 'p', 'e', ']', ':', ' ', 'h', 't', 't', 'p', 's', ':', '/', '/', 'd', 'o', 'c', 's', '.', 'r', 's', '/', 'p', 'l', 'a', 't', 'f', 'o', 'r', 'm', 's', '/', 'l', 'a', 't', 'e', 's', 't', '/', 'p', 'l', 'a', 't', 'f', 'o', 'r', 'm', 's', '/', 'p', 'l', 'a', 't', 'f', 'o', 'r', 'm', '/', 'c', 'o', 'n', 's', 't', 'a', 'n', 't', '.', 'P', 'O', 'W', 'E', 'R', 'P', 'C', '_', 'U', 'N', 'K', 'N', 'O', 'W', 'N', '_', 'L', 'I', 'N', 'U', 'X', '_', 'M', 'U', 'S', 'L', 'S', 'P', 'E', '.', 'h', 't', 'm', 'l'],
  ['[', 'p', 'o', 'w', 'e', 'r', 'p', 'c', '-', 'u', 'n', 'k', 'n', 'o', 'w', 'n', '-', 'n', 'e', 't', 'b', 's', 'd', ']', ':', ' ', 'h', 't', 't', 'p', 's', ':', '/', '/', 'd', 'o', 'c', 's', '.', 'r', 's', '/', 'p', 'l', 'a', 't', 'f', 'o', 'r', 'm', 's', '/', 'l', 'a', 't', 'e', 's', 't', '/', 'p', 'l', 'a', 't', 'f', 'o', 'r', 'm', 's', '/', 'p', 'l', 'a', 't', 'f', 'o', 'r', 'm', '/', 'c', 'o', 'n', 's', 't', 'a', 'n', 't', '.', 'P', 'O', 'W', 'E', 'R', 'P', 'C', '_', 'U', 'N', 'K', 'N', 'O', 'W', 'N', '_', 'N', 'E', 'T', 'B', 'S', 'D', '.', 'h', 't', 'm', 'l'],
  ['[', 'p', 'o', 'w', 'e', 'r', 'p', 'c', '-', 'u', 'n', 'k', 'n', 'o', 'w', 'n', '-', 'o', 'p', 'e', 'n', 'b', 's', 'd', ']', ':', ' ', 'h', 't', 't', 'p', 's', ':', '/', '/', 'd', 'o', 'c', 's', '.', 'r', 's', '/', 'p', 'l', 'a', 't', 'f', 'o', 'r', 'm', 's', '/', 'l', 'a', 't', 'e', 's', 't', '/', 'p', 'l', 'a', 't', 'f', 'o', 'r', 'm', 's', '/', 'p', 'l', 'a', 't', 'f', 'o', 'r', 'm', '/', 'c', 'o', 'n', 's', 't', 'a', 'n', 't', '.', 'P', 'O', 'W', 'E', 'R', 'P', 'C', '_', 'U', 'N', 'K', 'N', 'O', 'W', 'N', '_', 'O', 'P', 'E', 'N', 'B', 'S', 'D', '.', 'h', 't', 'm', 'l'],
  ['[', 'p', 'o', 'w', 'e', 'r', 'p', 'c', '-', 'w', 'r', 's', '-', 'v', 'x', 'w', 'o', 'r', 'k', 's', ']', ':', ' ', 'h', 't', 't', 'p', 's', ':', '/', '/', 'd', 'o', 'c', 's', '.', 'r', 's', '/', 'p', 'l', 'a', 't', 'f', 'o', 'r', 'm', 's', '/', 'l', 'a', 't', 'e', 's', 't', '/', 'p', 'l', 'a', 't', 'f', 'o', 'r', 'm', 's', '/', 'p', 'l', 'a', 't', 'f', 'o', 'r', 'm', '/', 'c', 'o', 'n', 's', 't', 'a', 'n', 't', '.', 'P', 'O', 'W', 'E', 'R', 'P', 'C', '_', 'W', 'R', 'S', '_', 'V', 'X', 'W', 'O', 'R', 'K', 'S', '.', 'h', 't', 'm', 'l'],
  ['[', 'p', 'o', 'w', 'e', 'r', 'p', 'c', '-', 'w', 'r', 's', '-', 'v', 'x', 'w', 'o', 'r', 'k', 's', '-', 's', 'p', 'e', ']', ':', ' ', 'h', 't', 't', 'p', 's', ':', '/', '/', 'd', 'o', 'c', 's', '.', 'r', 's', '/', 'p', 'l', 'a', 't', 'f', 'o', 'r', 'm', 's', '/', 'l', 'a', 't', 'e', 's', 't', '/', 'p', 'l', 'a', 't', 'f', 'o', 'r', 'm', 's', '/', 'p', 'l', 'a', 't', 'f', 'o', 'r', 'm', '/', 'c', 'o', 'n', 's', 't', 'a', 'n', 't', '.', 'P', 'O', 'W', 'E', 'R', 'P', 'C', '_', 'W', 'R', 'S', '_', 'V', 'X', 'W', 'O', 'R', 'K', 'S', '_', 'S', 'P', 'E', '.', 'h', 't', 'm', 'l'],
  ['[', 'p', 'o', 'w', 'e', 'r', 'p', 'c', '6', '4', '-', 'i', 'b', 'm', '-', 'a', 'i', 'x', ']', ':', ' ', 'h', 't', 't', 'p', 's', ':', '/', '/', 'd', 'o', 'c', 's', '.', 'r', 's', '/', 'p', 'l', 'a', 't', 'f', 'o', 'r', 'm', 's', '/', 'l', 'a', 't', 'e', 's', 't', '/', 'p', 'l', 'a', 't', 'f', 'o', 'r', 'm', 's', '/', 'p', 'l', 'a', 't', 'f', 'o', 'r', 'm', '/', 'c', 'o', 'n', 's', 't', 'a', 'n', 't', '.', 'P', 'O', 'W', 'E', 'R', 'P', 'C', '6', '4', '_', 'I', 'B', 'M', '_', 'A', 'I', 'X', '.', 'h', 't', 'm', 'l']]

/-- `platforms/README.md:588-612`. -/
def readme21 : List Str := [
  ['[', 'p', 'o', 'w', 'e', 'r', 'p', 'c', '6', '4', '-', 'u', 'n', 'k', 'n', 'o', 'w', 'n', '-', 'f', 'r', 'e', 'e', 'b', 's', 'd', ']', ':', ' ', 'h', 't', 't', 'p', 's', ':', '/', '/', 'd', 'o', 'c', 's', '.', 'r', 's', '/', 'p', 'l', 'a', 't', 'f', 'o', 'r', 'm', 's', '/', 'l', 'a', 't', 'e', 's', 't', '/', 'p', 'l', 'a', 't', 'f', 'o', 'r', 'm', 's', '/', 'p', 'l', 'a', 't', 'f', 'o', 'r', 'm', '/', 'c', 'o', 'n', 's', 't', 'a', 'n', 't', '.', 'P', 'O', 'W', 'E', 'R', 'P', 'C', '6', '4', '_', 'U', 'N', 'K', 'N', 'O', 'W', 'N', '_', 'F', 'R', 'E', 'E', 'B', 'S', 'D', '.', 'h', 't', 'm', 'l'],
  ['[', 'p', 'o', 'w', 'e', 'r', 'p', 'c', '6', '4', '-', 'u', 'n', 'k', 'n', 'o', 'w', 'n', '-', 'l', 'i', 'n', 'u', 'x', '-', 'g', 'n', 'u', ']', ':', ' ', 'h', 't', 't', 'p', 's', ':', '/', '/', 'd', 'o', 'c', 's', '.', 'r', 's', '/', 'p', 'l', 'a', 't', 'f', 'o', 'r', 'm', 's', '/', 'l', 'a', 't', 'e', 's', 't', '/', 'p', 'l', 'a', 't', 'f', 'o', 'r', 'm', 's', '/', 'p', 'l', 'a', 't', 'f', 'o', 'r', 'm', '/', 'c', 'o', 'n', 's', 't', 'a', 'n', 't', '.', 'P', 'O', 'W', 'E', 'R', 'P', 'C', '6', '4', '_', 'U', 'N', 'K', 'N', 'O', 'W', 'N', '_', 'L', 'I', 'N', 'U', 'X', '_', 'G', 'N', 'U', '.', 'h', 't', 'm', 'l'],
  ['[', 'p', 'o', 'w', 'e', 'r', 'p', 'c', '6', '4', '-', 'u', 'n', 'k', 'n', 'o', 'w', 'n', '-', 'l', 'i', 'n', 'u', 'x', '-', 'g', 'n', 'u', 'e', 'l', 'f', 'v', '2', ']', ':', ' ', 'h', 't', 't', 'p', 's', ':', '/', '/', 'd', 'o', 'c', 's', '.', 'r', 's', '/', 'p', 'l', 'a', 't', 'f', 'o', 'r', 'm', 's', '/', 'l', 'a', 't', 'e', 's', 't', '/', 'p', 'l', 'a', 't', 'f', 'o', 'r', 'm', 's', '/', 'p', 'l', 'a', 't', 'f', 'o', 'r', 'm', '/', 'c', 'o', 'n', 's', 't', 'a', 'n', 't', '.', 'P', 'O', 'W', 'E', 'R', 'P', 'C', '6', '4', '_', 'U', 'N', 'K', 'N', 'O', 'W', 'N', '_', 'L', 'I', 'N', 'U', 'X', '_', 'G', 'N', 'U', 'E', 'L', 'F', 'V', '2', '.', 'h', 't', 'm', 'l'],
  ['[', 'p', 'o', 'w', 'e', 'r', 'p', 'c', '6', '4', '-', 'u', 'n', 'k', 'n', 'o', 'w', 'n', '-', 'l', 'i', 'n', 'u', 'x', '-', 'm', 'u', 's', 'l', ']', ':', ' ', 'h', 't', 't', 'p', 's', ':', '/', '/', 'd', 'o', 'c', 's', '.', 'r', 's', '/', 'p', 'l', 'a', 't', 'f', 'o', 'r', 'm', 's', '/', 'l', 'a', 't', 'e', 's', 't', '/', 'p', 'l', 'a', 't', 'f', 'o', 'r', 'm', 's', '/', 'p', 'l', 'a', 't', 'f', 'o', 'r', 'm', '/', 'c', 'o', 'n', 's', 't', 'a', 'n', 't', '.', 'P', 'O', 'W', 'E', 'R', 'P', 'C', '6', '4', '_', 'U', 'N', 'K', 'N', 'O', 'W', 'N', '_', 'L', 'I', 'N', 'U', 'X', '_', 'M', 'U', 'S', 'L', '.', 'h', 't', 'm', 'l'],
  ['[', 'p', 'o', 'w', 'e', 'r', 'p', 'c', '6', '4', '-', 'u', 'n', 'k', 'n', 'o', 'w', 'n', '-', 'o', 'p', 'e', 'n', 'b', 's', 'd', ']', ':', ' ', 'h', 't', 't', 'p', 's', ':', '/', '/', 'd', 'o', 'c', 's', '.', 'r', 's', '/', 'p', 'l', 'a', 't', 'f', 'o', 'r', 'm', 's', '/', 'l', 'a', 't', 'e', 's', 't', '/', 'p', 'l', 'a', 't', 'f', 'o', 'r', 'm', 's', '/', 'p', 'l', 'a', 't', 'f', 'o', 'r', 'm', '/', 'c', 'o', 'n', 's', 't', 'a', 'n', 't', '.', 'P', 'O', 'W', 'E', 'R', 'P', 'C', '6', '4', '_', 'U', 'N', 'K', 'N', 'O', 'W', 'N', '_', 'O', 'P', 'E', 'N', 'B', 'S', 'D', '.', 'h', 't', 'm', 'l'],
  ['[', 'p', 'o', 'w', 'e', 'r', 'p', 'c', '6', '4', '-', 'w', 'r', 's', '-', 'v', 'x', 'w', 'o', 'r', 'k', 's', ']', ':', ' ', 'h', 't', 't', 'p', 's', ':', '/', '/', 'd', 'o', 'c', 's', '.', 'r', 's', '/', 'p', 'l', 'a', 't', 'f', 'o', 'r', 'm', 's', '/', 'l', 'a', 't', 'e', 's', 't', '/', 'p', 'l', 'a', 't', 'f', 'o', 'r', 'm', 's', '/', 'p', 'l', 'a', 't', 'f', 'o', 'r', 'm', '/', 'c', 'o', 'n', 's', 't', 'a', 'n', 't', '.', 'P', 'O', 'W', 'E', 'R', 'P', 'C', '6', '4', '_', 'W', 'R', 'S', '_', 'V', 'X', 'W', 'O', 'R', 'K', 'S', '.', 'h', 't', 'm', 'l'],
  ['[', 'p', 'o', 'w', 'e', 'r', 'p', 'c', '6', '4', 'l', 'e', '-', 'u', 'n', 'k', 'n', 'o', 'w', 'n', '-', 'f', 'r', 'e', 'e', 'b', 's', 'd', ']', ':', ' ', 'h', 't', 't', 'p', 's', ':', '/', '/', 'd', 'o', 'c', 's', '.', 'r', 's', '/', 'p', 'l', 'a', 't', 'f', 'o', 'r', 'm', 's', '/', 'l', 'a', 't', 'e', 's', 't', '/', 'p', 'l', 'a', 't', 'f', 'o', 'r', 'm', 's', '/', 'p', 'l', 'a', 't', 'f', 'o', 'r', 'm', '/', 'c', 'o', 'n', 's', 't', 'a', 'n', 't', '.', 'P', 'O', 'W', 'E', 'R', 'P', 'C', '6', '4', 'L', 'E', '_', 'U', 'N', 'K', 'N', 'O', 'W', 'N', '_', 'F', 'R', 'E', 'E', 'B', 'S', 'D', '.', 'h', 't', 'm', 'l'],
  ['[', 'p', 'o', 'w', 'e', 'r', 'p', 'c', '6', '4', 'l', 'e', '-', 'u', 'n', 'k', 'n', 'o', 'w', 'n', '-', 'l', 'i', 'n', 'u', 'x', '-', 'g', 'n', 'u', ']', ':', ' ', 'h', 't', 't', 'p', 's', ':', '/', '/', 'd', 'o', 'c', 's', '.', 'r', 's', '/', 'p', 'l', 'a', 't', 'f', 'o', 'r', 'm', 's', '/', 'l', 'a', 't', 'e', 's', 't', '/', 'p', 'l', 'a', 't', 'f', 'o', 'r', 'm', 's', '/', 'p', 'l', 'a', 't', 'f', 'o', 'r', 'm', '/', 'c', 'o', 'n', 's', 't', 'a', 'n', 't', '.', 'P', 'O', 'W', 'E', 'R', 'P', 'C', '6', '4', 'L', 'E', '_', 'U', 'N', 'K', 'N', 'O', 'W', 'N', '_', 'L', 'I', 'N', 'U', 'X', '_', 'G', 'N', 'U', '.', 'h', 't', 'm', 'l'],
  ['[', 'p', 'o', 'w', 'e', 'r', 'p', 'c', '6', '4', 'l', 'e', '-', 'u', 'n', 'k', 'n', 'o', 'w', 'n', '-', 'l', 'i', 'n', 'u', 'x', '-', 'm', 'u', 's', 'l', ']', ':', ' ', 'h', 't', 't', 'p', 's', ':', '/', '/', 'd', 'o', 'c', 's', '.', 'r', 's', '/', 'p', 'l', 'a', 't', 'f', 'o', 'r', 'm', 's', '/', 'l', 'a', 't', 'e', 's', 't', '/', 'p', 'l', 'a', 't', 'f', 'o', 'r', 'm', 's', '/', 'p', 'l', 'a', 't', 'f', 'o', 'r', 'm', '/', 'c', 'o', 'n', 's', 't', 'a', 'n', 't', '.', 'P', 'O', 'W', 'E', 'R', 'P', 'C', '6', '4', 'L', 'E', '_', 'U', 'N', 'K', 'N', 'O', 'W', 'N', '_', 'L', 'I', 'N', 'U', 'X', '_', 'M', 'U', 'S', 'L', '.', 'h', 't', 'm', 'l'],
  ['[', 'r', 'i', 's', 'c', 'v', '3', '2', '-', 'w', 'r', 's', '-', 'v', 'x', 'w', 'o', 'r', 'k', 's', ']', ':', ' ', 'h', 't', 't', 'p', 's', ':', '/', '/', 'd', 'o', 'c', 's', '.', 'r', 's', '/', 'p', 'l', 'a', 't', 'f', 'o', 'r', 'm', 's', '/', 'l', 'a', 't', 'e', 's', 't', '/', 'p', 'l', 'a', 't', 'f', 'o', 'r', 'm', 's', '/', 'p', 'l', 'a', 't', 'f', 'o', 'r', 'm', '/', 'c', 'o', 'n', 's', 't', 'a', 'n', 't', '.', 'R', 'I', 'S', 'C', 'V', '3', '2', '_', 'W', 'R', 'S', '_', 'V', 'X', 'W', 'O', 'R', 'K', 'S', '.', 'h', 't', 'm', 'l'],
  ['[', 'r', 'i', 's', 'c', 'v', '3', '2', 'e', '-', 'u', 'n', 'k', 'n', 'o', 'w', 'n', '-', 'n', 'o', 'n', 'e', '-', 'e', 'l', 'f', ']', ':', ' ', 'h', 't', 't', 'p', 's', ':', '/', '/', 'd', 'o', 'c', 's', '.', 'r', 's', '/', 'p', 'l', 'a', 't', 'f', 'o', 'r', 'm', 's', '/', 'l', 'a', 't', 'e', 's', 't', '/', 'p', 'l', 'a', 't', 'f', 'o', 'r', 'm', 's', '/', 'p', 'l', 'a', 't', 'f', 'o', 'r', 'm', '/', 'c', 'o', 'n', 's', 't', 'a', 'n', 't', '.', 'R', 'I', 'S', 'C', 'V', '3', '2', 'E', '_', 'U', 'N', 'K', 'N', 'O', 'W', 'N', '_', 'N', 'O', 'N', 'E', '_', 'E', 'L', 'F', '.', 'h', 't', 'm', 'l'],
  ['[', 'r', 'i', 's', 'c', 'v', '3', '2', 'e', 'm', '-', 'u', 'n', 'k', 'n', 'o', 'w', 'n', '-', 'n', 'o', 'n', 'e', '-', 'e', 'l', 'f', ']', ':', ' ', 'h', 't', 't', 'p', 's', ':', '/', '/', 'd', 'o', 'c', 's', '.', 'r', 's', '/', 'p', 'l', 'a', 't', 'f', 'o', 'r', 'm', 's', '/', 'l', 'a', 't', 'e', 's', 't', '/', 'p', 'l', 'a', 't', 'f', 'o', 'r', 'm', 's', '/', 'p', 'l', 'a', 't', 'f', 'o', 'r', 'm', '/', 'c', 'o', 'n', 's', 't', 'a', 'n', 't', '.', 'R', 'I', 'S', 'C', 'V', '3', '2', 'E', 'M', '_', 'U', 'N', 'K', 'N', 'O', 'W', 'N', '_', 'N', 'O', 'N', 'E', '_', 'E', 'L', 'F', '.', 'h', 't', 'm', 'l'],
  ['[', 'r', 'i', 's', 'c', 'v', '3', '2', 'e', 'm', 'c', '-', 'u', 'n', 'k', 'n', 'o', 'w', 'n', '-', 'n', 'o', 'n', 'e', '-', 'e', 'l', 'f', ']', ':', ' ', 'h', 't', 't', 'p', 's', ':', '/', '/', 'd', 'o', 'c', 's', '.', 'r', 's', '/', 'p', 'l', 'a', 't', 'f', 'o', 'r', 'm', 's', '/', 'l', 'a', 't', 'e', 's', 't', '/', 'p', 'l', 'a', 't', 'f', 'o', 'r', 'm', 's', '/', 'p', 'l', 'a', 't', 'f', 'o', 'r', 'm', '/', 'c', 'o', 'n', 's', 't', 'a', 'n', 't', '.', 'R', 'I', 'S', 'C', 'V', '3', '2', 'E', 'M', 'C', '_', 'U', 'N', 'K', 'N', 'O', 'W', 'N', '_', 'N', 'O', 'N', 'E', '_', 'E', 'L', 'F', '.', 'h', 't', 'm', 'l'],
  ['[', 'r', 'i', 's', 'c', 'v', '3', '2', 'g', 'c', '-', 'u', 'n', 'k', 'n', 'o', 'w', 'n', '-', 'l', 'i', 'n', 'u', 'x', '-', 'g', 'n', 'u', ']', ':', ' ', 'h', 't', 't', 'p', 's', ':', '/', '/', 'd', 'o', 'c', 's', '.', 'r', 's', '/', 'p', 'l', 'a', 't', 'f', 'o', 'r', 'm', 's', '/', 'l', 'a', 't', 'e', 's', 't', '/', 'p', 'l', 'a', 't', 'f', 'o', 'r', 'm', 's', '/', 'p', 'l', 'a', 't', 'f', 'o', 'r', 'm', '/', 'c', 'o', 'n', 's', 't', 'a', 'n', 't', '.', 'R', 'I', 'S', 'C', 'V', '3', '2', 'G', 'C', '_', 'U', 'N', 'K', 'N', 'O', 'W', 'N', '_', 'L', 'I', 'N', 'U', 'X', '_', 'G', 'N', 'U', '.', 'h', 't', 'm', 'l'],
  ['[', 'r', 'i', 's', 'c', 'v', '3', '2', 'g', 'c', '-', 'u', 'n', 'k', 'n', 'o', 'w', 'n', '-', 'l', 'i', 'n', 'u', 'x', '-', 'm', 'u', 's', 'l', ']', ':', ' ', 'h', 't', 't', 'p', 's', ':', '/', '/', 'd', 'o', 'c', 's', '.', 'r', 's', '/', 'p', 'l', 'a', 't', 'f', 'o', 'r', 'm', 's', '/', 'l', 'a', 't', 'e', 's', 't', '/', 'p', 'l', 'a', 't', 'f', 'o', 'r', 'm', 's', '/', 'p', 'l', 'a', 't', 'f', 'o', 'r', 'm', '/', 'c', 'o', 'n', 's', 't', 'a', 'n', 't', '.', 'R', 'I', 'S', 'C', 'V', '3', '2', 'G', 'C', '_', 'U', 'N', 'K', 'N', 'O', 'W', 'N', '_', 'L', 'I', 'N', 'U', 'X', '_', 'M', 'U', 'S', 'L', '.', 'h', 't', 'm', 'l'],
  ['[', 'r', 'i', 's', 'c', 'v', '3', '2', 'i', '-', 'u', 'n', 'k', 'n', 'o', 'w', 'n', '-', 'n', 'o', 'n', 'e', '-', 'e', 'l', 'f', ']', ':', ' ', 'h', 't', 't', 'p', 's', ':', '/', '/', 'd', 'o', 'c', 's', '.', 'r', 's', '/', 'p', 'l', 'a', 't', 'f', 'o', 'r', 'm', 's', '/', 'l', 'a', 't', 'e', 's', 't', '/', 'p', 'l', 'a', 't', 'f', 'o', 'r', 'm', 's', '/', 'p', 'l', 'a', 't', 'f', 'o', 'r', 'm', '/', 'c', 'o', 'n', 's', 't', 'a', 'n', 't', '.', 'R', 'I', 'S', 'C', 'V', '3', '2', 'I', '_', 'U', 'N', 'K', 'N', 'O', 'W', 'N', '_', 'N', 'O', 'N', 'E', '_', 'E', 'L', 'F', '.', 'h', 't', 'm', 'l'],
  ['[', 'r', 'i', 's', 'c', 'v', '3', '2', 'i', 'm', '-', 'r', 'i', 's', 'c', '0', '-', 'z', 'k', 'v', 'm', '-', 'e', 'l', 'f', ']', ':', ' ', 'h', 't', 't', 'p', 's', ':', '/', '/', 'd', 'o', 'c', 's', '.', 'r', 's', '/', 'p', 'l', 'a', 't', 'f', 'o', 'r', 'm', 's', '/', 'l', 'a', 't', 'e', 's', 't', '/', 'p', 'l', 'a', 't', 'f', 'o', 'r', 'm', 's', '/', 'p', 'l', 'a', 't', 'f', 'o', 'r', 'm', '/', 'c', 'o', 'n', 's', 't', 'a', 'n', 't', '.', 'R', 'I', 'S', 'C', 'V', '3', '2', 'I', 'M', '_', 'R', 'I', 'S', 'C', '0', '_', 'Z', 'K', 'V', 'M', '_', 'E', 'L', 'F', '.', 'h', 't', 'm', 'l'],
  ['[', 'r', 'i', 's', 'c', 'v', '3', '2', 'i', 'm', '-', 'u', 'n', 'k', 'n', 'o', 'w', 'n', '-', 'n', 'o', 'n', 'e', '-', 'e', 'l', 'f', ']', ':', ' ', 'h', 't', 't', 'p', 's', ':', '/', '/', 'd', 'o', 'c', 's', '.', 'r', 's', '/', 'p', 'l', 'a', 't', 'f', 'o', 'r', 'm', 's', '/', 'l', 'a', 't', 'e', 's', 't', '/', 'p', 'l', 'a', 't', 'f', 'o', 'r', 'm', 's', '/', 'p', 'l', 'a', 't', 'f', 'o', 'r', 'm', '/', 'c', 'o', 'n', 's', 't', 'a', 'n', 't', '.', 'R', 'I', 'S', 'C', 'V', '3', '2', 'I', 'M', '_', 'U', 'N', 'K', 'N', 'O', 'W', 'N', '_', 'N', 'O', 'N', 'E', '_', 'E', 'L', 'F', '.', 'h', 't', 'm', 'l'],
  ['[', 'r', 'i', 's', 'c', 'v', '3', '2', 'i', 'm', 'a', '-', 'u', 'n', 'k', 'n', 'o', 'w', 'n', '-', 'n', 'o', 'n', 'e', '-', 'e', 'l', 'f', ']', ':', ' ', 'h', 't', 't', 'p', 's', ':', '/', '/', 'd', 'o', 'c', 's', '.', 'r', 's', '/', 'p', 'l', 'a', 't', 'f', 'o', 'r', 'm', 's', '/', 'l', 'a', 't', 'e', 's', 't', '/', 'p', 'l', 'a', 't', 'f', 'o', 'r', 'm', 's', '/', 'p', 'l', 'a', 't', 'f', 'o', 'r', 'm', '/', 'c', 'o', 'n', 's', 't', 'a', 'n', 't', '.', 'R', 'I', 'S', 'C', 'V', '3', '2', 'I', 'M', 'A', '_', 'U', 'N', 'K', 'N', 'O', 'W', 'N', '_', 'N', 'O', 'N', 'E', '_', 'E', 'L', 'F', '.', 'h', 't', 'm', 'l'],
  ['[', 'r', 'i', 's', 'c', 'v', '3', '2', 'i', 'm', 'a', 'c', '-', 'e', 's', 'p', '-', 'e', 's', 'p', 'i', 'd', 'f', ']', ':', ' ', 'h', 't', 't', 'p', 's', ':', '/', '/', 'd', 'o', 'c', 's', '.', 'r', 's', '/', 'p', 'l', 'a', 't', 'f', 'o', 'r', 'm', 's', '/', 'l', 'a', 't', 'e', 's', 't', '/', 'p', 'l', 'a', 't', 'f', 'o', 'r', 'm', 's', '/', 'p', 'l', 'a', 't', 'f', 'o', 'r', 'm', '/', 'c', 'o', 'n', 's', 't', 'a', 'n', 't', '.', 'R', 'I', 'S', 'C', 'V', '3', '2', 'I', 'M', 'A', 'C', '_', 'E', 'S', 'P', '_', 'E', 'S', 'P', 'I', 'D', 'F', '.', 'h', 't', 'm', 'l'],
  ['[', 'r', 'i', 's', 'c', 'v', '3', '2', 'i', 'm', 'a', 'c', '-', 'u', 'n', 'k', 'n', 'o', 'w', 'n', '-', 'n', 'o', 'n', 'e', '-', 'e', 'l', 'f', ']', ':', ' ', 'h', 't', 't', 'p', 's', ':', '/', '/', 'd', 'o', 'c', 's', '.', 'r', 's', '/', 'p', 'l', 'a', 't', 'f', 'o', 'r', 'm', 's', '/', 'l', 'a', 't', 'e', 's', 't', '/', 'p', 'l', 'a', 't', 'f', 'o', 'r', 'm', 's', '/', 'p', 'l', 'a', 't', 'f', 'o', 'r', 'm', '/', 'c', 'o', 'n', 's', 't', 'a', 'n', 't', '.', 'R', 'I', 'S', 'C', 'V', '3', '2', 'I', 'M', 'A', 'C', '_', 'U', 'N', 'K', 'N', 'O', 'W', 'N', '_', 'N', 'O', 'N', 'E', '_', 'E', 'L', 'F', '.', 'h', 't', 'm', 'l'],
  ['[', 'r', 'i', 's', 'c', 'v', '3', '2', 'i', 'm', 'a', 'c', '-', 'u', 'n', 'k', 'n', 'o', 'w', 'n', '-', 'n', 'u', 't', 't', 'x', '-', 'e', 'l', 'f', ']', ':', ' ', 'h', 't', 't', 'p', 's', ':', '/', '/', 'd', 'o', 'c', 's', '.', 'r', 's', '/', 'p', 'l', 'a', 't', 'f', 'o', 'r', 'm', 's', '/', 'l', 'a', 't', 'e', 's', 't', '/', 'p', 'l', 'a', 't', 'f', 'o', 'r', 'm', 's', '/', 'p', 'l', 'a', 't', 'f', 'o', 'r', 'm', '/', 'c', 'o', 'n', 's', 't', 'a', 'n', 't', '.', 'R', 'I', 'S', 'C', 'V', '3', '2', 'I', 'M', 'A', 'C', '_', 'U', 'N', 'K', 'N', 'O', 'W', 'N', '_', 'N', 'U', 'T', 'T', 'X', '_', 'E', 'L', 'F', '.', 'h', 't', 'm', 'l'],
  ['[', 'r', 'i', 's', 'c', 'v', '3', '2', 'i', 'm', 'a', 'c', '-', 'u', 'n', 'k', 'n', 'o', 'w', 'n', '-', 'x', 'o', 'u', 's', '-', 'e', 'l', 'f', ']', ':', ' ', 'h', 't', 't', 'p', 's', ':', '/', '/', 'd', 'o', 'c', 's', '.', 'r', 's', '/', 'p', 'l', 'a', 't', 'f', 'o', 'r', 'm', 's', '/', 'l', 'a', 't', 'e', 's', 't', '/', 'p', 'l', 'a', 't', 'f', 'o', 'r', 'm', 's', '/', 'p', 'l', 'a', 't', 'f', 'o', 'r', 'm', '/', 'c', 'o', 'n', 's', 't', 'a', 'n', 't', '.', 'R', 'I', 'S', 'C', 'V', '3', '2', 'I', 'M', 'A', 'C', '_', 'U', 'N', 'K', 'N', 'O', 'W', 'N', '_', 'X', 'O', 'U', 'S', '_', 'E', 'L', 'F', '.', 'h', 't', 'm', 'l'],
  ['[', 'r', 'i', 's', 'c', 'v', '3', '2', 'i', 'm', 'a', 'f', 'c', '-', 'e', 's', 'p', '-', 'e', 's', 'p', 'i', 'd', 'f', ']', ':', ' ', 'h', 't', 't', 'p', 's', ':', '/', '/', 'd', 'o', 'c', 's', '.', 'r', 's', '/', 'p', 'l', 'a', 't', 'f', 'o', 'r', 'm', 's', '/', 'l', 'a', 't', 'e', 's', 't', '/', 'p', 'l', 'a', 't', 'f', 'o', 'r', 'm', 's', '/', 'p', 'l', 'a', 't', 'f', 'o', 'r', 'm', '/', 'c', 'o', 'n', 's', 't', 'a', 'n', 't', '.', 'R', 'I', 'S', 'C', 'V', '3', '2', 'I', 'M', 'A', 'F', 'C', '_', 'E', 'S', 'P', '_', 'E', 'S', 'P', 'I', 'D', 'F', '.', 'h', 't', 'm', 'l'],
  ['[', 'r', 'i', 's', 'c', 'v', '3', '2', 'i', 'm', 'a', 'f', 'c', '-', 'u', 'n', 'k', 'n', 'o', 'w', 'n', '-', 'n', 'o', 'n', 'e', '-', 'e', 'l', 'f', ']', ':', ' ', 'h', 't', 't', 'p', 's', ':', '/', '/', 'd', 'o', 'c', 's', '.', 'r', 's', '/', 'p', 'l', 'a', 't', 'f', 'o', 'r', 'm', 's', '/', 'l', 'a', 't', 'e', 's', 't', '/', 'p', 'l', 'a', 't', 'f', 'o', 'r', 'm', 's', '/', 'p', 'l', 'a', 't', 'f', 'o', 'r', 'm', '/', 'c', 'o', 'n', 's', 't', 'a', 'n', 't', '.', 'R', 'I', 'S', 'C', 'V', '3', '2', 'I', 'M', 'A', 'F', 'C', '_', 'U', 'N', 'K', 'N', 'O', 'W', 'N', '_', 'N', 'O', 'N', 'E', '_', 'E', 'L', 'F', '.', 'h', 't', 'm', 'l']]

/-- `platforms/README.md:613-637`. -/
def readme22 : List Str := [
  ['[', 'r', 'i', 's', 'c', 'v', '3', '2', 'i', 'm', 'a', 'f', 'c', '-', 'u', 'n', 'k', 'n', 'o', 'w', 'n', '-', 'n', 'u', 't', 't', 'x', '-', 'e', 'l', 'f', ']', ':', ' ', 'h', 't', 't', 'p', 's', ':', '/', '/', 'd', 'o', 'c', 's', '.', 'r', 's', '/', 'p', 'l', 'a', 't', 'f', 'o', 'r', 'm', 's', '/', 'l', 'a', 't', 'e', 's', 't', '/', 'p', 'l', 'a', 't', 'f', 'o', 'r', 'm', 's', '/', 'p', 'l', 'a', 't', 'f', 'o', 'r', 'm', '/', 'c', 'o', 'n', 's', 't', 'a', 'n', 't', '.', 'R', 'I', 'S', 'C', 'V', '3', '2', 'I', 'M', 'A', 'F', 'C', '_', 'U', 'N', 'K', 'N', 'O', 'W', 'N', '_', 'N', 'U', 'T', 'T', 'X', '_', 'E', 'L', 'F', '.', 'h', 't', 'm', 'l'],
  ['[', 'r', 'i', 's', 'c', 'v', '3', '2', 'i', 'm', 'c', '-', 'e', 's', 'p', '-', 'e', 's', 'p', 'i', 'd', 'f', ']', ':', ' ', 'h', 't', 't', 'p', 's', ':', '/', '/', 'd', 'o', 'c', 's', '.', 'r', 's', '/', 'p', 'l', 'a', 't', 'f', 'o', 'r', 'm', 's', '/', 'l', 'a', 't', 'e', 's', 't', '/', 'p', 'l', 'a', 't', 'f', 'o', 'r', 'm', 's', '/', 'p', 'l', 'a', 't', 'f', 'o', 'r', 'm', '/', 'c', 'o', 'n', 's', 't', 'a', 'n', 't', '.', 'R', 'I', 'S', 'C', 'V', '3', '2', 'I', 'M', 'C', '_', 'E', 'S', 'P', '_', 'E', 'S', 'P', 'I', 'D', 'F', '.', 'h', 't', 'm', 'l'],
  ['[', 'r', 'i', 's', 'c', 'v', '3', '2', 'i', 'm', 'c', '-', 'u', 'n', 'k', 'n', 'o', 'w', 'n', '-', 'n', 'o', 'n', 'e', '-', 'e', 'l', 'f', ']', ':', ' ', 'h', 't', 't', 'p', 's', ':', '/', '/', 'd', 'o', 'c', 's', '.', 'r', 's', '/', 'p', 'l', 'a', 't', 'f', 'o', 'r', 'm', 's', '/', 'l', 'a', 't', 'e', 's', 't', '/', 'p', 'l', 'a', 't', 'f', 'o', 'r', 'm', 's', '/', 'p', 'l', 'a', 't', 'f', 'o', 'r', 'm', '/', 'c', 'o', 'n', 's', 't', 'a', 'n', 't', '.', 'R', 'I', 'S', 'C', 'V', '3', '2', 'I', 'M', 'C', '_', 'U', 'N', 'K', 'N', 'O', 'W', 'N', '_', 'N', 'O', 'N', 'E', '_', 'E', 'L', 'F', '.', 'h', 't', 'm', 'l'],
  ['[', 'r', 'i', 's', 'c', 'v', '3', '2', 'i', 'm', 'c', '-', 'u', 'n', 'k', 'n', 'o', 'w', 'n', '-', 'n', 'u', 't', 't', 'x', '-', 'e', 'l', 'f', ']', ':', ' ', 'h', 't', 't', 'p', 's', ':', '/', '/', 'd', 'o', 'c', 's', '.', 'r', 's', '/', 'p', 'l', 'a', 't', 'f', 'o', 'r', 'm', 's', '/', 'l', 'a', 't', 'e', 's', 't', '/', 'p', 'l', 'a', 't', 'f', 'o', 'r', 'm', 's', '/', 'p', 'l', 'a', 't', 'f', 'o', 'r', 'm', '/', 'c', 'o', 'n', 's', 't', 'a', 'n', 't', '.', 'R', 'I', 'S', 'C', 'V', '3', '2', 'I', 'M', 'C', '_', 'U', 'N', 'K', 'N', 'O', 'W', 'N', '_', 'N', 'U', 'T', 'T', 'X', '_', 'E', 'L', 'F', '.', 'h', 't', 'm', 'l'],
  ['[', 'r', 'i', 's', 'c', 'v', '3', '2', 'i', 'm', 'f', 'c', '-', 'u', 'n', 'k', 'n', 'o', 'w', 'n', '-', 'n', 'o', 'n', 'e', '-', 'e', 'l', 'f', ']', ':', ' ', 'h', 't', 't', 'p', 's', ':', '/', '/', 'd', 'o', 'c', 's', '.', 'r', 's', '/', 'p', 'l', 'a', 't', 'f', 'o', 'r', 'm', 's', '/', 'l', 'a', 't', 'e', 's', 't', '/', 'p', 'l', 'a', 't', 'f', 'o', 'r', 'm', 's', '/', 'p', 'l', 'a', 't', 'f', 'o', 'r', 'm', '/', 'c', 'o', 'n', 's', 't', 'a', 'n', 't', '.', 'R', 'I', 'S', 'C', 'V', '3', '2', 'I', 'M', 'F', 'C', '_', 'U', 'N', 'K', 'N', 'O', 'W', 'N', '_', 'N', 'O', 'N', 'E', '_', 'E', 'L', 'F', '.', 'h', 't', 'm', 'l'],
  ['[', 'r', 'i', 's', 'c', 'v', '6', '4', '-', 'l', 'i', 'n', 'u', 'x', '-', 'a', 'n', 'd', 'r', 'o', 'i', 'd', ']', ':', ' ', 'h', 't', 't', 'p', 's', ':', '/', '/', 'd', 'o', 'c', 's', '.', 'r', 's', '/', 'p', 'l', 'a', 't', 'f', 'o', 'r', 'm', 's', '/', 'l', 'a', 't', 'e', 's', 't', '/', 'p', 'l', 'a', 't', 'f', 'o', 'r', 'm', 's', '/', 'p', 'l', 'a', 't', 'f', 'o', 'r', 'm', '/', 'c', 'o', 'n', 's', 't', 'a', 'n', 't', '.', 'R', 'I', 'S', 'C', 'V', '6', '4', '_', 'L', 'I', 'N', 'U', 'X', '_', 'A', 'N', 'D', 'R', 'O', 'I', 'D', '.', 'h', 't', 'm', 'l'],
  ['[', 'r', 'i', 's', 'c', 'v', '6', '4', '-', 'o', 'e', '-', 'l', 'i', 'n', 'u', 'x', '-', 'g', 'n', 'u', ']', ':', ' ', 'h', 't', 't', 'p', 's', ':', '/', '/', 'd', 'o', 'c', 's', '.', 'r', 's', '/', 'p', 'l', 'a', 't', 'f', 'o', 'r', 'm', 's', '/', 'l', 'a', 't', 'e', 's', 't', '/', 'p', 'l', 'a', 't', 'f', 'o', 'r', 'm', 's', '/', 'p', 'l', 'a', 't', 'f', 'o', 'r', 'm', '/', 'c', 'o', 'n', 's', 't', 'a', 'n', 't', '.', 'R', 'I', 'S', 'C', 'V', '6', '4', '_', 'O', 'E', '_', 'L', 'I', 'N', 'U', 'X', '_', 'G', 'N', 'U', '.', 'h', 't', 'm', 'l'],
  ['[', 'r', 'i', 's', 'c', 'v', '6', '4', '-', 'w', 'r', 's', '-', 'v', 'x', 'w', 'o', 'r', 'k', 's', ']', ':', ' ', 'h', 't', 't', 'p', 's', ':', '/', '/', 'd', 'o', 'c', 's', '.', 'r', 's', '/', 'p', 'l', 'a', 't', 'f', 'o', 'r', 'm', 's', '/', 'l', 'a', 't', 'e', 's', 't', '/', 'p', 'l', 'a', 't', 'f', 'o', 'r', 'm', 's', '/', 'p', 'l', 'a', 't', 'f', 'o', 'r', 'm', '/', 'c', 'o', 'n', 's', 't', 'a', 'n', 't', '.', 'R', 'I', 'S', 'C', 'V', '6', '4', '_', 'W', 'R', 'S', '_', 'V', 'X', 'W', 'O', 'R', 'K', 'S', '.', 'h', 't', 'm', 'l'],
  ['[', 'r', 'i', 's', 'c', 'v', '6', '4', 'a', '2', '3', '-', 'u', 'n', 'k', 'n', 'o', 'w', 'n', '-', 'l', 'i', 'n', 'u', 'x', '-', 'g', 'n', 'u', ']', ':', ' ', 'h', 't', 't', 'p', 's', ':', '/', '/', 'd', 'o', 'c', 's', '.', 'r', 's', '/', 'p', 'l', 'a', 't', 'f', 'o', 'r', 'm', 's', '/', 'l', 'a', 't', 'e', 's', 't', '/', 'p', 'l', 'a', 't', 'f', 'o', 'r', 'm', 's', '/', 'p', 'l', 'a', 't', 'f', 'o', 'r', 'm', '/', 'c', 'o', 'n', 's', 't', 'a', 'n', 't', '.', 'R', 'I', 'S', 'C', 'V', '6', '4', 'A', '2', '3', '_', 'U', 'N', 'K', 'N', 'O', 'W', 'N', '_', 'L', 'I', 'N', 'U', 'X', '_', 'G', 'N', 'U', '.', 'h', 't', 'm', 'l'],
  ['[', 'r', 'i', 's', 'c', 'v', '6', '4', 'g', 'c', '-', 'u', 'n', 'k', 'n', 'o', 'w', 'n', '-', 'f', 'r', 'e', 'e', 'b', 's', 'd', ']', ':', ' ', 'h', 't', 't', 'p', 's', ':', '/', '/', 'd', 'o', 'c', 's', '.', 'r', 's', '/', 'p', 'l', 'a', 't', 'f', 'o', 'r', 'm', 's', '/', 'l', 'a', 't', 'e', 's', 't', '/', 'p', 'l', 'a', 't', 'f', 'o', 'r', 'm', 's', '/', 'p', 'l', 'a', 't', 'f', 'o', 'r', 'm', '/', 'c', 'o', 'n', 's', 't', 'a', 'n', 't', '.', 'R', 'I', 'S', 'C', 'V', '6', '4', 'G', 'C', '_', 'U', 'N', 'K', 'N', 'O', 'W', 'N', '_', 'F', 'R', 'E', 'E', 'B', 'S', 'D', '.', 'h', 't', 'm', 'l'],
  ['[', 'r', 'i', 's', 'c', 'v', '6', '4', 'g', 'c', '-', 'u', 'n', 'k', 'n', 'o', 'w', 'n', '-', 'f', 'u', 'c', 'h', 's', 'i', 'a', ']', ':', ' ', 'h', 't', 't', 'p', 's', ':', '/', '/', 'd', 'o', 'c', 's', '.', 'r', 's', '/', 'p', 'l', 'a', 't', 'f', 'o', 'r', 'm', 's', '/', 'l', 'a', 't', 'e', 's', 't', '/', 'p', 'l', 'a', 't', 'f', 'o', 'r', 'm', 's', '/', 'p', 'l', 'a', 't', 'f', 'o', 'r', 'm', '/', 'c', 'o', 'n', 's', 't', 'a', 'n', 't', '.', 'R', 'I', 'S', 'C', 'V', '6', '4', 'G', 'C', '_', 'U', 'N', 'K', 'N', 'O', 'W', 'N', '_', 'F', 'U', 'C', 'H', 'S', 'I', 'A', '.', 'h', 't', 'm', 'l'],
  ['[', 'r', 'i', 's', 'c', 'v', '6', '4', 'g', 'c', '-', 'u', 'n', 'k', 'n', 'o', 'w', 'n', '-', 'h', 'e', 'r', 'm', 'i', 't', ']', ':', ' ', 'h', 't', 't', 'p', 's', ':', '/', '/', 'd', 'o', 'c', 's', '.', 'r', 's', '/', 'p', 'l', 'a', 't', 'f', 'o', 'r', 'm', 's', '/', 'l', 'a', 't', 'e', 's', 't', '/', 'p', 'l', 'a', 't', 'f', 'o', 'r', 'm', 's', '/', 'p', 'l', 'a', 't', 'f', 'o', 'r', 'm', '/', 'c', 'o', 'n', 's', 't', 'a', 'n', 't', '.', 'R', 'I', 'S', 'C', 'V', '6', '4', 'G', 'C', '_', 'U', 'N', 'K', 'N', 'O', 'W', 'N', '_', 'H', 'E', 'R', 'M', 'I', 'T', '.', 'h', 't', 'm', 'l'],
  ['[', 'r', 'i', 's', 'c', 'v', '6', '4', 'g', 'c', '-', 'u', 'n', 'k', 'n', 'o', 'w', 'n', '-', 'l', 'i', 'n', 'u', 'x', '-', 'g', 'n', 'u', ']', ':', ' ', 'h', 't', 't', 'p', 's', ':', '/', '/', 'd', 'o', 'c', 's', '.', 'r', 's', '/', 'p', 'l', 'a', 't', 'f', 'o', 'r', 'm', 's', '/', 'l', 'a', 't', 'e', 's', 't', '/', 'p', 'l', 'a', 't', 'f', 'o', 'r', 'm', 's', '/', 'p', 'l', 'a', 't', 'f', 'o', 'r', 'm', '/', 'c', 'o', 'n', 's', 't', 'a', 'n', 't', '.', 'R', 'I', 'S', 'C', 'V', '6', '4', 'G', 'C', '_', 'U', 'N', 'K', 'N', 'O', 'W', 'N', '_', 'L', 'I', 'N', 'U', 'X', '_', 'G', 'N', 'U', '.', 'h', 't', 'm', 'l'],
  ['[', 'r', 'i', 's', 'c', 'v', '6', '4', 'g', 'c', '-', 'u', 'n', 'k', 'n', 'o', 'w', 'n', '-', 'l', 'i', 'n', 'u', 'x', '-', 'm', 'u', 's', 'l', ']', ':', ' ', 'h', 't', 't', 'p', 's', ':', '/', '/', 'd', 'o', 'c', 's', '.', 'r', 's', '/', 'p', 'l', 'a', 't', 'f', 'o', 'r', 'm', 's', '/', 'l', 'a', 't', 'e', 's', 't', '/', 'p', 'l', 'a', 't', 'f', 'o', 'r', 'm', 's', '/', 'p', 'l', 'a', 't', 'f', 'o', 'r', 'm', '/', 'c', 'o', 'n', 's', 't', 'a', 'n', 't', '.', 'R', 'I', 'S', 'C', 'V', '6', '4', 'G', 'C', '_', 'U', 'N', 'K', 'N', 'O', 'W', 'N', '_', 'L', 'I', 'N', 'U', 'X', '_', 'M', 'U', 'S', 'L', '.', 'h', 't', 'm', 'l'],
  ['[', 'r', 'i', 's', 'c', 'v', '6', '4', 'g', 'c', '-', 'u', 'n', 'k', 'n', 'o', 'w', 'n', '-', 'm', 'a', 'n', 'a', 'g', 'a', 'r', 'm', '-', 'm', 'l', 'i', 'b', 'c', ']', ':', ' ', 'h', 't', 't', 'p', 's', ':', '/', '/', 'd', 'o', 'c', 's', '.', 'r', 's', '/', 'p', 'l', 'a', 't', 'f', 'o', 'r', 'm', 's', '/', 'l', 'a', 't', 'e', 's', 't', '/', 'p', 'l', 'a', 't', 'f', 'o', 'r', 'm', 's', '/', 'p', 'l', 'a', 't', 'f', 'o', 'r', 'm', '/', 'c', 'o', 'n', 's', 't', 'a', 'n', 't', '.', 'R', 'I', 'S', 'C', 'V', '6', '4', 'G', 'C', '_', 'U', 'N', 'K', 'N', 'O', 'W', 'N', '_', 'M', 'A', 'N', 'A', 'G', 'A', 'R', 'M', '_', 'M', 'L', 'I', 'B', 'C', '.', 'h', 't', 'm', 'l'],
  ['[', 'r', 'i', 's', 'c', 'v', '6', '4', 'g', 'c', '-', 'u', 'n', 'k', 'n', 'o', 'w', 'n', '-', 'n', 'e', 't', 'b', 's', 'd', ']', ':', ' ', 'h', 't', 't', 'p', 's', ':', '/', '/', 'd', 'o', 'c', 's', '.', 'r', 's', '/', 'p', 'l', 'a', 't', 'f', 'o', 'r', 'm', 's', '/', 'l', 'a', 't', 'e', 's', 't', '/', 'p', 'l', 'a', 't', 'f', 'o', 'r', 'm', 's', '/', 'p', 'l', 'a', 't', 'f', 'o', 'r', 'm', '/', 'c', 'o', 'n', 's', 't', 'a', 'n', 't', '.', 'R', 'I', 'S', 'C', 'V', '6', '4', 'G', 'C', '_', 'U', 'N', 'K', 'N', 'O', 'W', 'N', '_', 'N', 'E', 'T', 'B', 'S', 'D', '.', 'h', 't', 'm', 'l'],
  ['[', 'r', 'i', 's', 'c', 'v', '6', '4', 'g', 'c', '-', 'u', 'n', 'k', 'n', 'o', 'w', 'n', '-', 'n', 'o', 'n', 'e', '-', 'e', 'l', 'f', ']', ':', ' ', 'h', 't', 't', 'p', 's', ':', '/', '/', 'd', 'o', 'c', 's', '.', 'r', 's', '/', 'p', 'l', 'a', 't', 'f', 'o', 'r', 'm', 's', '/', 'l', 'a', 't', 'e', 's', 't', '/', 'p', 'l', 'a', 't', 'f', 'o', 'r', 'm', 's', '/', 'p', 'l', 'a', 't', 'f', 'o', 'r', 'm', '/', 'c', 'o', 'n', 's', 't', 'a', 'n', 't', '.', 'R', 'I', 'S', 'C', 'V', '6', '4', 'G', 'C', '_', 'U', 'N', 'K', 'N', 'O', 'W', 'N', '_', 'N', 'O', 'N', 'E', '_', 'E', 'L', 'F', '.', 'h', 't', 'm', 'l'],
  ['[', 'r', 'i', 's', 'c', 'v', '6', '4', 'g', 'c', '-', 'u', 'n', 'k', 'n', 'o', 'w', 'n', '-', 'n', 'u', 't', 't', 'x', '-', 'e', 'l', 'f', ']', ':', ' ', 'h', 't', 't', 'p', 's', ':', '/', '/', 'd', 'o', 'c', 's', '.', 'r', 's', '/', 'p', 'l', 'a', 't', 'f', 'o', 'r', 'm', 's', '/', 'l', 'a', 't', 'e', 's', 't', '/', 'p', 'l', 'a', 't', 'f', 'o', 'r', 'm', 's', '/', 'p', 'l', 'a', 't', 'f', 'o', 'r', 'm', '/', 'c', 'o', 'n', 's', 't', 'a', 'n', 't', '.', 'R', 'I', 'S', 'C', 'V', '6', '4', 'G', 'C', '_', 'U', 'N', 'K', 'N', 'O', 'W', 'N', '_', 'N', 'U', 'T', 'T', 'X', '_', 'E', 'L', 'F', '.', 'h', 't', 'm', 'l'],
  ['[', 'r', 'i', 's', 'c', 'v', '6', '4', 'g', 'c', '-', 'u', 'n', 'k', 'n', 'o', 'w', 'n', '-', 'o', 'p', 'e', 'n', 'b', 's', 'd', ']', ':', ' ', 'h', 't', 't', 'p', 's', ':', '/', '/', 'd', 'o', 'c', 's', '.', 'r', 's', '/', 'p', 'l', 'a', 't', 'f', 'o', 'r', 'm', 's', '/', 'l', 'a', 't', 'e', 's', 't', '/', 'p', 'l', 'a', 't', 'f', 'o', 'r', 'm', 's', '/', 'p', 'l', 'a', 't', 'f', 'o', 'r', 'm', '/', 'c', 'o', 'n', 's', 't', 'a', 'n', 't', '.', 'R', 'I', 'S', 'C', 'V', '6', '4', 'G', 'C', '_', 'U', 'N', 'K', 'N', 'O', 'W', 'N', '_', 'O', 'P', 'E', 'N', 'B', 'S', 'D', '.', 'h', 't', 'm', 'l'],
  ['[', 'r', 'i', 's', 'c', 'v', '6', '4', 'g', 'c', '-', 'u', 'n', 'k', 'n', 'o', 'w', 'n', '-', 'r', 'e', 'd', 'o', 'x', ']', ':', ' ', 'h', 't', 't', 'p', 's', ':', '/', '/', 'd', 'o', 'c', 's', '.', 'r', 's', '/', 'p', 'l', 'a', 't', 'f', 'o', 'r', 'm', 's', '/', 'l', 'a', 't', 'e', 's', 't', '/', 'p', 'l', 'a', 't', 'f', 'o', 'r', 'm', 's', '/', 'p', 'l', 'a', 't', 'f', 'o', 'r', 'm', '/', 'c', 'o', 'n', 's', 't', 'a', 'n', 't', '.', 'R', 'I', 'S', 'C', 'V', '6', '4', 'G', 'C', '_', 'U', 'N', 'K', 'N', 'O', 'W', 'N', '_', 'R', 'E', 'D', 'O', 'X', '.', 'h', 't', 'm', 'l'],
  ['[', 'r', 'i', 's', 'c', 'v', '6', '4', 'i', 'm', '-', 'u', 'n', 'k', 'n', 'o', 'w', 'n', '-', 'n', 'o', 'n', 'e', '-', 'e', 'l', 'f', ']', ':', ' ', 'h', 't', 't', 'p', 's', ':', '/', '/', 'd', 'o', 'c', 's', '.', 'r', 's', '/', 'p', 'l', 'a', 't', 'f', 'o', 'r', 'm', 's', '/', 'l', 'a', 't', 'e', 's', 't', '/', 'p', 'l', 'a', 't', 'f', 'o', 'r', 'm', 's', '/', 'p', 'l', 'a', 't', 'f', 'o', 'r', 'm', '/', 'c', 'o', 'n', 's', 't', 'a', 'n', 't', '.', 'R', 'I', 'S', 'C', 'V', '6', '4', 'I', 'M', '_', 'U', 'N', 'K', 'N', 'O', 'W', 'N', '_', 'N', 'O', 'N', 'E', '_', 'E', 'L', 'F', '.', 'h', 't', 'm', 'l'],
  ['[', 'r', 'i', 's', 'c', 'v', '6', '4', 'i', 'm', 'a', 'c', '-', 'u', 'n', 'k', 'n', 'o', 'w', 'n', '-', 'n', 'o', 'n', 'e', '-', 'e', 'l', 'f', ']', ':', ' ', 'h', 't', 't', 'p', 's', ':', '/', '/', 'd', 'o', 'c', 's', '.', 'r', 's', '/', 'p', 'l', 'a', 't', 'f', 'o', 'r', 'm', 's', '/', 'l', 'a', 't', 'e', 's', 't', '/', 'p', 'l', 'a', 't', 'f', 'o', 'r', 'm', 's', '/', 'p', 'l', 'a', 't', 'f', 'o', 'r', 'm', '/', 'c', 'o', 'n', 's', 't', 'a', 'n', 't', '.', 'R', 'I', 'S', 'C', 'V', '6', '4', 'I', 'M', 'A', 'C', '_', 'U', 'N', 'K', 'N', 'O', 'W', 'N', '_', 'N', 'O', 'N', 'E', '_', 'E', 'L', 'F', '.', 'h', 't', 'm', 'l'],
  ['[', 'r', 'i', 's', 'c', 'v', '6', '4', 'i', 'm', 'a', 'c', '-', 'u', 'n', 'k', 'n', 'o', 'w', 'n', '-', 'n', 'u', 't', 't', 'x', '-', 'e', 'l', 'f', ']', ':', ' ', 'h', 't', 't', 'p', 's', ':', '/', '/', 'd', 'o', 'c', 's', '.', 'r', 's', '/', 'p', 'l', 'a', 't', 'f', 'o', 'r', 'm', 's', '/', 'l', 'a', 't', 'e', 's', 't', '/', 'p', 'l', 'a', 't', 'f', 'o', 'r', 'm', 's', '/', 'p', 'l', 'a', 't', 'f', 'o', 'r', 'm', '/', 'c', 'o', 'n', 's', 't', 'a', 'n', 't', '.', 'R', 'I', 'S', 'C', 'V', '6', '4', 'I', 'M', 'A', 'C', '_', 'U', 'N', 'K', 'N', 'O', 'W', 'N', '_', 'N', 'U', 'T', 'T', 'X', '_', 'E', 'L', 'F', '.', 'h', 't', 'm', 'l'],
  ['[', 's', '3', '9', '0', 'x', '-', 'u', 'n', 'k', 'n', 'o', 'w', 'n', '-', 'l', 'i', 'n', 'u', 'x', '-', 'g', 'n', 'u', ']', ':', ' ', 'h', 't', 't', 'p', 's', ':', '/', '/', 'd', 'o', 'c', 's', '.', 'r', 's', '/', 'p', 'l', 'a', 't', 'f', 'o', 'r', 'm', 's', '/', 'l', 'a', 't', 'e', 's', 't', '/', 'p', 'l', 'a', 't', 'f', 'o', 'r', 'm', 's', '/', 'p', 'l', 'a', 't', 'f', 'o', 'r', 'm', '/', 'c', 'o', 'n', 's', 't', 'a', 'n', 't', '.', 'S', '3', '9', '0', 'X', '_', 'U', 'N', 'K', 'N', 'O', 'W', 'N', '_', 'L', 'I', 'N', 'U', 'X', '_', 'G', 'N', 'U', '.', 'h', 't', 'm', 'l'],
  ['[', 's', '3', '9', '0', 'x', '-', 'u', 'n', 'k', 'n', 'o', 'w', 'n', '-', 'l', 'i', 'n', 'u', 'x', '-', 'm', 'u', 's', 'l', ']', ':', ' ', 'h', 't', 't', 'p', 's', ':', '/', '/', 'd', 'o', 'c', 's', '.', 'r', 's', '/', 'p', 'l', 'a', 't', 'f', 'o', 'r', 'm', 's', '/', 'l', 'a', 't', 'e', 's', 't', '/', 'p', 'l', 'a', 't', 'f', 'o', 'r', 'm', 's', '/', 'p', 'l', 'a', 't', 'f', 'o', 'r', 'm', '/', 'c', 'o', 'n', 's', 't', 'a', 'n', 't', '.', 'S', '3', '9', '0', 'X', '_', 'U', 'N', 'K', 'N', 'O', 'W', 'N', '_', 'L', 'I', 'N', 'U', 'X', '_', 'M', 'U', 'S', 'L', '.', 'h', 't', 'm', 'l']]

/-- `platforms/README.md:638-662`. -/
def readme23 : List Str := [
  ['[', 's', '3', '9', '0', 'x', '-', 'u', 'n', 'k', 'n', 'o', 'w', 'n', '-', 'n', 'o', 'n', 'e', '-', 's', 'o', 'f', 't', 'f', 'l', 'o', 'a', 't', ']', ':', ' ', 'h', 't', 't', 'p', 's', ':', '/', '/', 'd', 'o', 'c', 's', '.', 'r', 's', '/', 'p', 'l', 'a', 't', 'f', 'o', 'r', 'm', 's', '/', 'l', 'a', 't', 'e', 's', 't', '/', 'p', 'l', 'a', 't', 'f', 'o', 'r', 'm', 's', '/', 'p', 'l', 'a', 't', 'f', 'o', 'r', 'm', '/', 'c', 'o', 'n', 's', 't', 'a', 'n', 't', '.', 'S', '3', '9', '0', 'X', '_', 'U', 'N', 'K', 'N', 'O', 'W', 'N', '_', 'N', 'O', 'N', 'E', '_', 'S', 'O', 'F', 'T', 'F', 'L', 'O', 'A', 'T', '.', 'h', 't', 'm', 'l'],
  ['[', 's', 'p', 'a', 'r', 'c', '-', 'u', 'n', 'k', 'n', 'o', 'w', 'n', '-', 'l', 'i', 'n', 'u', 'x', '-', 'g', 'n', 'u', ']', ':', ' ', 'h', 't', 't', 'p', 's', ':', '/', '/', 'd', 'o', 'c', 's', '.', 'r', 's', '/', 'p', 'l', 'a', 't', 'f', 'o', 'r', 'm', 's', '/', 'l', 'a', 't', 'e', 's', 't', '/', 'p', 'l', 'a', 't', 'f', 'o', 'r', 'm', 's', '/', 'p', 'l', 'a', 't', 'f', 'o', 'r', 'm', '/', 'c', 'o', 'n', 's', 't', 'a', 'n', 't', '.', 'S', 'P', 'A', 'R', 'C', '_', 'U', 'N', 'K', 'N', 'O', 'W', 'N', '_', 'L', 'I', 'N', 'U', 'X', '_', 'G', 'N', 'U', '.', 'h', 't', 'm', 'l'],
  ['[', 's', 'p', 'a', 'r', 'c', '-', 'u', 'n', 'k', 'n', 'o', 'w', 'n', '-', 'n', 'o', 'n', 'e', '-', 'e', 'l', 'f', ']', ':', ' ', 'h', 't', 't', 'p', 's', ':', '/', '/', 'd', 'o', 'c', 's', '.', 'r', 's', '/', 'p', 'l', 'a', 't', 'f', 'o', 'r', 'm', 's', '/', 'l', 'a', 't', 'e', 's', 't', '/', 'p', 'l', 'a', 't', 'f', 'o', 'r', 'm', 's', '/', 'p', 'l', 'a', 't', 'f', 'o', 'r', 'm', '/', 'c', 'o', 'n', 's', 't', 'a', 'n', 't', '.', 'S', 'P', 'A', 'R', 'C', '_', 'U', 'N', 'K', 'N', 'O', 'W', 'N', '_', 'N', 'O', 'N', 'E', '_', 'E', 'L', 'F', '.', 'h', 't', 'm', 'l'],
  ['[', 's', 'p', 'a', 'r', 'c', '6', '4', '-', 'u', 'n', 'k', 'n', 'o', 'w', 'n', '-', 'h', 'e', 'l', 'e', 'n', 'o', 's', ']', ':', ' ', 'h', 't', 't', 'p', 's', ':', '/', '/', 'd', 'o', 'c', 's', '.', 'r', 's', '/', 'p', 'l', 'a', 't', 'f', 'o', 'r', 'm', 's', '/', 'l', 'a', 't', 'e', 's', 't', '/', 'p', 'l', 'a', 't', 'f', 'o', 'r', 'm', 's', '/', 'p', 'l', 'a', 't', 'f', 'o', 'r', 'm', '/', 'c', 'o', 'n', 's', 't', 'a', 'n', 't', '.', 'S', 'P', 'A', 'R', 'C', '6', '4', '_', 'U', 'N', 'K', 'N', 'O', 'W', 'N', '_', 'H', 'E', 'L', 'E', 'N', 'O', 'S', '.', 'h', 't', 'm', 'l'],
  ['[', 's', 'p', 'a', 'r', 'c', '6', '4', '-', 'u', 'n', 'k', 'n', 'o', 'w', 'n', '-', 'l', 'i', 'n', 'u', 'x', '-', 'g', 'n', 'u', ']', ':', ' ', 'h', 't', 't', 'p', 's', ':', '/', '/', 'd', 'o', 'c', 's', '.', 'r', 's', '/', 'p', 'l', 'a', 't', 'f', 'o', 'r', 'm', 's', '/', 'l', 'a', 't', 'e', 's', 't', '/', 'p', 'l', 'a', 't', 'f', 'o', 'r', 'm', 's', '/', 'p', 'l', 'a', 't', 'f', 'o', 'r', 'm', '/', 'c', 'o', 'n', 's', 't', 'a', 'n', 't', '.', 'S', 'P', 'A', 'R', 'C', '6', '4', '_', 'U', 'N', 'K', 'N', 'O', 'W', 'N', '_', 'L', 'I', 'N', 'U', 'X', '_', 'G', 'N', 'U', '.', 'h', 't', 'm', 'l'],
  ['[', 's', 'p', 'a', 'r', 'c', '6', '4', '-', 'u', 'n', 'k', 'n', 'o', 'w', 'n', '-', 'n', 'e', 't', 'b', 's', 'd', ']', ':', ' ', 'h', 't', 't', 'p', 's', ':', '/', '/', 'd', 'o', 'c', 's', '.', 'r', 's', '/', 'p', 'l', 'a', 't', 'f', 'o', 'r', 'm', 's', '/', 'l', 'a', 't', 'e', 's', 't', '/', 'p', 'l', 'a', 't', 'f', 'o', 'r', 'm', 's', '/', 'p', 'l', 'a', 't', 'f', 'o', 'r', 'm', '/', 'c', 'o', 'n', 's', 't', 'a', 'n', 't', '.', 'S', 'P', 'A', 'R', 'C', '6', '4', '_', 'U', 'N', 'K', 'N', 'O', 'W', 'N', '_', 'N', 'E', 'T', 'B', 'S', 'D', '.', 'h', 't', 'm', 'l'],
  ['[', 's', 'p', 'a', 'r', 'c', '6', '4', '-', 'u', 'n', 'k', 'n', 'o', 'w', 'n', '-', 'o', 'p', 'e', 'n', 'b', 's', 'd', ']', ':', ' ', 'h', 't', 't', 'p', 's', ':', '/', '/', 'd', 'o', 'c', 's', '.', 'r', 's', '/', 'p', 'l', 'a', 't', 'f', 'o', 'r', 'm', 's', '/', 'l', 'a', 't', 'e', 's', 't', '/', 'p', 'l', 'a', 't', 'f', 'o', 'r', 'm', 's', '/', 'p', 'l', 'a', 't', 'f', 'o', 'r', 'm', '/', 'c', 'o', 'n', 's', 't', 'a', 'n', 't', '.', 'S', 'P', 'A', 'R', 'C', '6', '4', '_', 'U', 'N', 'K', 'N', 'O', 'W', 'N', '_', 'O', 'P', 'E', 'N', 'B', 'S', 'D', '.', 'h', 't', 'm', 'l'],
  ['[', 's', 'p', 'a', 'r', 'c', 'v', '9', '-', 's', 'u', 'n', '-', 's', 'o', 'l', 'a', 'r', 'i', 's', ']', ':', ' ', 'h', 't', 't', 'p', 's', ':', '/', '/', 'd', 'o', 'c', 's', '.', 'r', 's', '/', 'p', 'l', 'a', 't', 'f', 'o', 'r', 'm', 's', '/', 'l', 'a', 't', 'e', 's', 't', '/', 'p', 'l', 'a', 't', 'f', 'o', 'r', 'm', 's', '/', 'p', 'l', 'a', 't', 'f', 'o', 'r', 'm', '/', 'c', 'o', 'n', 's', 't', 'a', 'n', 't', '.', 'S', 'P', 'A', 'R', 'C', 'V', '9', '_', 'S', 'U', 'N', '_', 'S', 'O', 'L', 'A', 'R', 'I', 'S', '.', 'h', 't', 'm', 'l'],
  ['[', 't', 'h', 'u', 'm', 'b', 'v', '4', 't', '-', 'n', 'o', 'n', 'e', '-', 'e', 'a', 'b', 'i', ']', ':', ' ', 'h', 't', 't', 'p', 's', ':', '/', '/', 'd', 'o', 'c', 's', '.', 'r', 's', '/', 'p', 'l', 'a', 't', 'f', 'o', 'r', 'm', 's', '/', 'l', 'a', 't', 'e', 's', 't', '/', 'p', 'l', 'a', 't', 'f', 'o', 'r', 'm', 's', '/', 'p', 'l', 'a', 't', 'f', 'o', 'r', 'm', '/', 'c', 'o', 'n', 's', 't', 'a', 'n', 't', '.', 'T', 'H', 'U', 'M', 'B', 'V', '4', 'T', '_', 'N', 'O', 'N', 'E', '_', 'E', 'A', 'B', 'I', '.', 'h', 't', 'm', 'l'],
  ['[', 't', 'h', 'u', 'm', 'b', 'v', '5', 't', 'e', '-', 'n', 'o', 'n', 'e', '-', 'e', 'a', 'b', 'i', ']', ':', ' ', 'h', 't', 't', 'p', 's', ':', '/', '/', 'd', 'o', 'c', 's', '.', 'r', 's', '/', 'p', 'l', 'a', 't', 'f', 'o', 'r', 'm', 's', '/', 'l', 'a', 't', 'e', 's', 't', '/', 'p', 'l', 'a', 't', 'f', 'o', 'r', 'm', 's', '/', 'p', 'l', 'a', 't', 'f', 'o', 'r', 'm', '/', 'c', 'o', 'n', 's', 't', 'a', 'n', 't', '.', 'T', 'H', 'U', 'M', 'B', 'V', '5', 'T', 'E', '_', 'N', 'O', 'N', 'E', '_', 'E', 'A', 'B', 'I', '.', 'h', 't', 'm', 'l'],
  ['[', 't', 'h', 'u', 'm', 'b', 'v', '6', '-', 'n', 'o', 'n', 'e', '-', 'e', 'a', 'b', 'i', ']', ':', ' ', 'h', 't', 't', 'p', 's', ':', '/', '/', 'd', 'o', 'c', 's', '.', 'r', 's', '/', 'p', 'l', 'a', 't', 'f', 'o', 'r', 'm', 's', '/', 'l', 'a', 't', 'e', 's', 't', '/', 'p', 'l', 'a', 't', 'f', 'o', 'r', 'm', 's', '/', 'p', 'l', 'a', 't', 'f', 'o', 'r', 'm', '/', 'c', 'o', 'n', 's', 't', 'a', 'n', 't', '.', 'T', 'H', 'U', 'M', 'B', 'V', '6', '_', 'N', 'O', 'N', 'E', '_', 'E', 'A', 'B', 'I', '.', 'h', 't', 'm', 'l'],
  ['[', 't', 'h', 'u', 'm', 'b', 'v', '6', 'm', '-', 'n', 'o', 'n', 'e', '-', 'e', 'a', 'b', 'i', ']', ':', ' ', 'h', 't', 't', 'p', 's', ':', '/', '/', 'd', 'o', 'c', 's', '.', 'r', 's', '/', 'p', 'l', 'a', 't', 'f', 'o', 'r', 'm', 's', '/', 'l', 'a', 't', 'e', 's', 't', '/', 'p', 'l', 'a', 't', 'f', 'o', 'r', 'm', 's', '/', 'p', 'l', 'a', 't', 'f', 'o', 'r', 'm', '/', 'c', 'o', 'n', 's', 't', 'a', 'n', 't', '.', 'T', 'H', 'U', 'M', 'B', 'V', '6', 'M', '_', 'N', 'O', 'N', 'E', '_', 'E', 'A', 'B', 'I', '.', 'h', 't', 'm', 'l'],
  ['[', 't', 'h', 'u', 'm', 'b', 'v', '6', 'm', '-', 'n', 'u', 't', 't', 'x', '-', 'e', 'a', 'b', 'i', ']', ':', ' ', 'h', 't', 't', 'p', 's', ':', '/', '/', 'd', 'o', 'c', 's', '.', 'r', 's', '/', 'p', 'l', 'a', 't', 'f', 'o', 'r', 'm', 's', '/', 'l', 'a', 't', 'e', 's', 't', '/', 'p', 'l', 'a', 't', 'f', 'o', 'r', 'm', 's', '/', 'p', 'l', 'a', 't', 'f', 'o', 'r', 'm', '/', 'c', 'o', 'n', 's', 't', 'a', 'n', 't', '.', 'T', 'H', 'U', 'M', 'B', 'V', '6', 'M', '_', 'N', 'U', 'T', 'T', 'X', '_', 'E', 'A', 'B', 'I', '.', 'h', 't', 'm', 'l'],
  ['[', 't', 'h', 'u', 'm', 'b', 'v', '7', 'a', '-', 'n', 'o', 'n', 'e', '-', 'e', 'a', 'b', 'i', ']', ':', ' ', 'h', 't', 't', 'p', 's', ':', '/', '/', 'd', 'o', 'c', 's', '.', 'r', 's', '/', 'p', 'l', 'a', 't', 'f', 'o', 'r', 'm', 's', '/', 'l', 'a', 't', 'e', 's', 't', '/', 'p', 'l', 'a', 't', 'f', 'o', 'r', 'm', 's', '/', 'p', 'l', 'a', 't', 'f', 'o', 'r', 'm', '/', 'c', 'o', 'n', 's', 't', 'a', 'n', 't', '.', 'T', 'H', 'U', 'M', 'B', 'V', '7', 'A', '_', 'N', 'O', 'N', 'E', '_', 'E', 'A', 'B', 'I', '.', 'h', 't', 'm', 'l'],
  ['[', 't', 'h', 'u', 'm', 'b', 'v', '7', 'a', '-', 'n', 'o', 'n', 'e', '-', 'e', 'a', 'b', 'i', 'h', 'f', ']', ':', ' ', 'h', 't', 't', 'p', 's', ':', '/', '/', 'd', 'o', 'c', 's', '.', 'r', 's', '/', 'p', 'l', 'a', 't', 'f', 'o', 'r', 'm', 's', '/', 'l', 'a', 't', 'e', 's', 't', '/', 'p', 'l', 'a', 't', 'f', 'o', 'r', 'm', 's', '/', 'p', 'l', 'a', 't', 'f', 'o', 'r', 'm', '/', 'c', 'o', 'n', 's', 't', 'a', 'n', 't', '.', 'T', 'H', 'U', 'M', 'B', 'V', '7', 'A', '_', 'N', 'O', 'N', 'E', '_', 'E', 'A', 'B', 'I', 'H', 'F', '.', 'h', 't', 'm', 'l'],
  ['[', 't', 'h', 'u', 'm', 'b', 'v', '7', 'a', '-', 'n', 'u', 't', 't', 'x', '-', 'e', 'a', 'b', 'i', ']', ':', ' ', 'h', 't', 't', 'p', 's', ':', '/', '/', 'd', 'o', 'c', 's', '.', 'r', 's', '/', 'p', 'l', 'a', 't', 'f', 'o', 'r', 'm', 's', '/', 'l', 'a', 't', 'e', 's', 't', '/', 'p', 'l', 'a', 't', 'f', 'o', 'r', 'm', 's', '/', 'p', 'l', 'a', 't', 'f', 'o', 'r', 'm', '/', 'c', 'o', 'n', 's', 't', 'a', 'n', 't', '.', 'T', 'H', 'U', 'M', 'B', 'V', '7', 'A', '_', 'N', 'U', 'T', 'T', 'X', '_', 'E', 'A', 'B', 'I', '.', 'h', 't', 'm', 'l'],
  ['[', 't', 'h', 'u', 'm', 'b', 'v', '7', 'a', '-', 'n', 'u', 't', 't', 'x', '-', 'e', 'a', 'b', 'i', 'h', 'f', ']', ':', ' ', 'h', 't', 't', 'p', 's', ':', '/', '/', 'd', 'o', 'c', 's', '.', 'r', 's', '/', 'p', 'l', 'a', 't', 'f', 'o', 'r', 'm', 's', '/', 'l', 'a', 't', 'e', 's', 't', '/', 'p', 'l', 'a', 't', 'f', 'o', 'r', 'm', 's', '/', 'p', 'l', 'a', 't', 'f', 'o', 'r', 'm', '/', 'c', 'o', 'n', 's', 't', 'a', 'n', 't', '.', 'T', 'H', 'U', 'M', 'B', 'V', '7', 'A', '_', 'N', 'U', 'T', 'T', 'X', '_', 'E', 'A', 'B', 'I', 'H', 'F', '.', 'h', 't', 'm', 'l'],
  ['[', 't', 'h', 'u', 'm', 'b', 'v', '7', 'a', '-', 'p', 'c', '-', 'w', 'i', 'n', 'd', 'o', 'w', 's', '-', 'm', 's', 'v', 'c', ']', ':', ' ', 'h', 't', 't', 'p', 's', ':', '/', '/', 'd', 'o', 'c', 's', '.', 'r', 's', '/', 'p', 'l', 'a', 't', 'f', 'o', 'r', 'm', 's', '/', 'l', 'a', 't', 'e', 's', 't', '/', 'p', 'l', 'a', 't', 'f', 'o', 'r', 'm', 's', '/', 'p', 'l', 'a', 't', 'f', 'o', 'r', 'm', '/', 'c', 'o', 'n', 's', 't', 'a', 'n', 't', '.', 'T', 'H', 'U', 'M', 'B', 'V', '7', 'A', '_', 'P', 'C', '_', 'W', 'I', 'N', 'D', 'O', 'W', 'S', '_', 'M', 'S', 'V', 'C', '.', 'h', 't', 'm', 'l'],
  ['[', 't', 'h', 'u', 'm', 'b', 'v', '7', 'a', '-', 'u', 'w', 'p', '-', 'w', 'i', 'n', 'd', 'o', 'w', 's', '-', 'm', 's', 'v', 'c', ']', ':', ' ', 'h', 't', 't', 'p', 's', ':', '/', '/', 'd', 'o', 'c', 's', '.', 'r', 's', '/', 'p', 'l', 'a', 't', 'f', 'o', 'r', 'm', 's', '/', 'l', 'a', 't', 'e', 's', 't', '/', 'p', 'l', 'a', 't', 'f', 'o', 'r', 'm', 's', '/', 'p', 'l', 'a', 't', 'f', 'o', 'r', 'm', '/', 'c', 'o', 'n', 's', 't', 'a', 'n', 't', '.', 'T', 'H', 'U', 'M', 'B', 'V', '7', 'A', '_', 'U', 'W', 'P', '_', 'W', 'I', 'N', 'D', 'O', 'W', 'S', '_', 'M', 'S', 'V', 'C', '.', 'h', 't', 'm', 'l'],
  ['[', 't', 'h', 'u', 'm', 'b', 'v', '7', 'a', '-', 'v', 'e', 'x', '-', 'v', '5', ']', ':', ' ', 'h', 't', 't', 'p', 's', ':', '/', '/', 'd', 'o', 'c', 's', '.', 'r', 's', '/', 'p', 'l', 'a', 't', 'f', 'o', 'r', 'm', 's', '/', 'l', 'a', 't', 'e', 's', 't', '/', 'p', 'l', 'a', 't', 'f', 'o', 'r', 'm', 's', '/', 'p', 'l', 'a', 't', 'f', 'o', 'r', 'm', '/', 'c', 'o', 'n', 's', 't', 'a', 'n', 't', '.', 'T', 'H', 'U', 'M', 'B', 'V', '7', 'A', '_', 'V', 'E', 'X', '_', 'V', '5', '.', 'h', 't', 'm', 'l'],
  ['[', 't', 'h', 'u', 'm', 'b', 'v', '7', 'e', 'm', '-', 'n', 'o', 'n', 'e', '-', 'e', 'a', 'b', 'i', ']', ':', ' ', 'h', 't', 't', 'p', 's', ':', '/', '/', 'd', 'o', 'c', 's', '.', 'r', 's', '/', 'p', 'l', 'a', 't', 'f', 'o', 'r', 'm', 's', '/', 'l', 'a', 't', 'e', 's', 't', '/', 'p', 'l', 'a', 't', 'f', 'o', 'r', 'm', 's', '/', 'p', 'l', 'a', 't', 'f', 'o', 'r', 'm', '/', 'c', 'o', 'n', 's', 't', 'a', 'n', 't', '.', 'T', 'H', 'U', 'M', 'B', 'V', '7', 'E', 'M', '_', 'N', 'O', 'N', 'E', '_', 'E', 'A', 'B', 'I', '.', 'h', 't', 'm', 'l'],
  ['[', 't', 'h', 'u', 'm', 'b', 'v', '7', 'e', 'm', '-', 'n', 'o', 'n', 'e', '-', 'e', 'a', 'b', 'i', 'h', 'f', ']', ':', ' ', 'h', 't', 't', 'p', 's', ':', '/', '/', 'd', 'o', 'c', 's', '.', 'r', 's', '/', 'p', 'l', 'a', 't', 'f', 'o', 'r', 'm', 's', '/', 'l', 'a', 't', 'e', 's', 't', '/', 'p', 'l', 'a', 't', 'f', 'o', 'r', 'm', 's', '/', 'p', 'l', 'a', 't', 'f', 'o', 'r', 'm', '/', 'c', 'o', 'n', 's', 't', 'a', 'n', 't', '.', 'T', 'H', 'U', 'M', 'B', 'V', '7', 'E', 'M', '_', 'N', 'O', 'N', 'E', '_', 'E', 'A', 'B', 'I', 'H', 'F', '.', 'h', 't', 'm', 'l'],
  ['[', 't', 'h', 'u', 'm', 'b', 'v', '7', 'e', 'm', '-', 'n', 'u', 't', 't', 'x', '-', 'e', 'a', 'b', 'i', ']', ':', ' ', 'h', 't', 't', 'p', 's', ':', '/', '/', 'd', 'o', 'c', 's', '.', 'r', 's', '/', 'p', 'l', 'a', 't', 'f', 'o', 'r', 'm', 's', '/', 'l', 'a', 't', 'e', 's', 't', '/', 'p', 'l', 'a', 't', 'f', 'o', 'r', 'm', 's', '/', 'p', 'l', 'a', 't', 'f', 'o', 'r', 'm', '/', 'c', 'o', 'n', 's', 't', 'a', 'n', 't', '.', 'T', 'H', 'U', 'M', 'B', 'V', '7', 'E', 'M', '_', 'N', 'U', 'T', 'T', 'X', '_', 'E', 'A', 'B', 'I', '.', 'h', 't', 'm', 'l'],
  ['[', 't', 'h', 'u', 'm', 'b', 'v', '7', 'e', 'm', '-', 'n', 'u', 't', 't', 'x', '-', 'e', 'a', 'b', 'i', 'h', 'f', ']', ':', ' ', 'h', 't', 't', 'p', 's', ':', '/', '/', 'd', 'o', 'c', 's', '.', 'r', 's', '/', 'p', 'l', 'a', 't', 'f', 'o', 'r', 'm', 's', '/', 'l', 'a', 't', 'e', 's', 't', '/', 'p', 'l', 'a', 't', 'f', 'o', 'r', 'm', 's', '/', 'p', 'l', 'a', 't', 'f', 'o', 'r', 'm', '/', 'c', 'o', 'n', 's', 't', 'a', 'n', 't', '.', 'T', 'H', 'U', 'M', 'B', 'V', '7', 'E', 'M', '_', 'N', 'U', 'T', 'T', 'X', '_', 'E', 'A', 'B', 'I', 'H', 'F', '.', 'h', 't', 'm', 'l'],
  ['[', 't', 'h', 'u', 'm', 'b', 'v', '7', 'm', '-', 'n', 'o', 'n', 'e', '-', 'e', 'a', 'b', 'i', ']', ':', ' ', 'h', 't', 't', 'p', 's', ':', '/', '/', 'd', 'o', 'c', 's', '.', 'r', 's', '/', 'p', 'l', 'a', 't', 'f', 'o', 'r', 'm', 's', '/', 'l', 'a', 't', 'e', 's', 't', '/', 'p', 'l', 'a', 't', 'f', 'o', 'r', 'm', 's', '/', 'p', 'l', 'a', 't', 'f', 'o', 'r', 'm', '/', 'c', 'o', 'n', 's', 't', 'a', 'n', 't', '.', 'T', 'H', 'U', 'M', 'B', 'V', '7', 'M', '_', 'N', 'O', 'N', 'E', '_', 'E', 'A', 'B', 'I', '.', 'h', 't', 'm', 'l']]

/-- `platforms/README.md:663-687`. -/
def readme24 : List Str := [
  ['[', 't', 'h', 'u', 'm', 'b', 'v', '7', 'm', '-', 'n', 'u', 't', 't', 'x', '-', 'e', 'a', 'b', 'i', ']', ':', ' ', 'h', 't', 't', 'p', 's', ':', '/', '/', 'd', 'o', 'c', 's', '.', 'r', 's', '/', 'p', 'l', 'a', 't', 'f', 'o', 'r', 'm', 's', '/', 'l', 'a', 't', 'e', 's', 't', '/', 'p', 'l', 'a', 't', 'f', 'o', 'r', 'm', 's', '/', 'p', 'l', 'a', 't', 'f', 'o', 'r', 'm', '/', 'c', 'o', 'n', 's', 't', 'a', 'n', 't', '.', 'T', 'H', 'U', 'M', 'B', 'V', '7', 'M', '_', 'N', 'U', 'T', 'T', 'X', '_', 'E', 'A', 'B', 'I', '.', 'h', 't', 'm', 'l'],
  ['[', 't', 'h', 'u', 'm', 'b', 'v', '7', 'n', 'e', 'o', 'n', '-', 'l', 'i', 'n', 'u', 'x', '-', 'a', 'n', 'd', 'r', 'o', 'i', 'd', 'e', 'a', 'b', 'i', ']', ':', ' ', 'h', 't', 't', 'p', 's', ':', '/', '/', 'd', 'o', 'c', 's', '.', 'r', 's', '/', 'p', 'l', 'a', 't', 'f', 'o', 'r', 'm', 's', '/', 'l', 'a', 't', 'e', 's', 't', '/', 'p', 'l', 'a', 't', 'f', 'o', 'r', 'm', 's', '/', 'p', 'l', 'a', 't', 'f', 'o', 'r', 'm', '/', 'c', 'o', 'n', 's', 't', 'a', 'n', 't', '.', 'T', 'H', 'U', 'M', 'B', 'V', '7', 'N', 'E', 'O', 'N', '_', 'L', 'I', 'N', 'U', 'X', '_', 'A', 'N', 'D', 'R', 'O', 'I', 'D', 'E', 'A', 'B', 'I', '.', 'h', 't', 'm', 'l'],
  ['[', 't', 'h', 'u', 'm', 'b', 'v', '7', 'n', 'e', 'o', 'n', '-', 'u', 'n', 'k', 'n', 'o', 'w', 'n', '-', 'l', 'i', 'n', 'u', 'x', '-', 'g', 'n', 'u', 'e', 'a', 'b', 'i', 'h', 'f', ']', ':', ' ', 'h', 't', 't', 'p', 's', ':', '/', '/', 'd', 'o', 'c', 's', '.', 'r', 's', '/', 'p', 'l', 'a', 't', 'f', 'o', 'r', 'm', 's', '/', 'l', 'a', 't', 'e', 's', 't', '/', 'p', 'l', 'a', 't', 'f', 'o', 'r', 'm', 's', '/', 'p', 'l', 'a', 't', 'f', 'o', 'r', 'm', '/', 'c', 'o', 'n', 's', 't', 'a', 'n', 't', '.', 'T', 'H', 'U', 'M', 'B', 'V', '7', 'N', 'E', 'O', 'N', '_', 'U', 'N', 'K', 'N', 'O', 'W', 'N', '_', 'L', 'I', 'N', 'U', 'X', '_', 'G', 'N', 'U', 'E', 'A', 'B', 'I', 'H', 'F', '.', 'h', 't', 'm', 'l'],
  ['[', 't', 'h', 'u', 'm', 'b', 'v', '7', 'n', 'e', 'o', 'n', '-', 'u', 'n', 'k', 'n', 'o', 'w', 'n', '-', 'l', 'i', 'n', 'u', 'x', '-', 'm', 'u', 's', 'l', 'e', 'a', 'b', 'i', 'h', 'f', ']', ':', ' ', 'h', 't', 't', 'p', 's', ':', '/', '/', 'd', 'o', 'c', 's', '.', 'r', 's', '/', 'p', 'l', 'a', 't', 'f', 'o', 'r', 'm', 's', '/', 'l', 'a', 't', 'e', 's', 't', '/', 'p', 'l', 'a', 't', 'f', 'o', 'r', 'm', 's', '/', 'p', 'l', 'a', 't', 'f', 'o', 'r', 'm', '/', 'c', 'o', 'n', 's', 't', 'a', 'n', 't', '.', 'T', 'H', 'U', 'M', 'B', 'V', '7', 'N', 'E', 'O', 'N', '_', 'U', 'N', 'K', 'N', 'O', 'W', 'N', '_', 'L', 'I', 'N', 'U', 'X', '_', 'M', 'U', 'S', 'L', 'E', 'A', 'B', 'I', 'H', 'F', '.', 'h', 't', 'm', 'l'],
  ['[', 't', 'h', 'u', 'm', 'b', 'v', '7', 'r', '-', 'n', 'o', 'n', 'e', '-', 'e', 'a', 'b', 'i', ']', ':', ' ', 'h', 't', 't', 'p', 's', ':', '/', '/', 'd', 'o', 'c', 's', '.', 'r', 's', '/', 'p', 'l', 'a', 't', 'f', 'o', 'r', 'm', 's', '/', 'l', 'a', 't', 'e', 's', 't', '/', 'p', 'l', 'a', 't', 'f', 'o', 'r', 'm', 's', '/', 'p', 'l', 'a', 't', 'f', 'o', 'r', 'm', '/', 'c', 'o', 'n', 's', 't', 'a', 'n', 't', '.', 'T', 'H', 'U', 'M', 'B', 'V', '7', 'R', '_', 'N', 'O', 'N', 'E', '_', 'E', 'A', 'B', 'I', '.', 'h', 't', 'm', 'l'],
  ['[', 't', 'h', 'u', 'm', 'b', 'v', '7', 'r', '-', 'n', 'o', 'n', 'e', '-', 'e', 'a', 'b', 'i', 'h', 'f', ']', ':', ' ', 'h', 't', 't', 'p', 's', ':', '/', '/', 'd', 'o', 'c', 's', '.', 'r', 's', '/', 'p', 'l', 'a', 't', 'f', 'o', 'r', 'm', 's', '/', 'l', 'a', 't', 'e', 's', 't', '/', 'p', 'l', 'a', 't', 'f', 'o', 'r', 'm', 's', '/', 'p', 'l', 'a', 't', 'f', 'o', 'r', 'm', '/', 'c', 'o', 'n', 's', 't', 'a', 'n', 't', '.', 'T', 'H', 'U', 'M', 'B', 'V', '7', 'R', '_', 'N', 'O', 'N', 'E', '_', 'E', 'A', 'B', 'I', 'H', 'F', '.', 'h', 't', 'm', 'l'],
  ['[', 't', 'h', 'u', 'm', 'b', 'v', '8', 'm', '.', 'b', 'a', 's', 'e', '-', 'n', 'o', 'n', 'e', '-', 'e', 'a', 'b', 'i', ']', ':', ' ', 'h', 't', 't', 'p', 's', ':', '/', '/', 'd', 'o', 'c', 's', '.', 'r', 's', '/', 'p', 'l', 'a', 't', 'f', 'o', 'r', 'm', 's', '/', 'l', 'a', 't', 'e', 's', 't', '/', 'p', 'l', 'a', 't', 'f', 'o', 'r', 'm', 's', '/', 'p', 'l', 'a', 't', 'f', 'o', 'r', 'm', '/', 'c', 'o', 'n', 's', 't', 'a', 'n', 't', '.', 'T', 'H', 'U', 'M', 'B', 'V', '8', 'M', '.', 'B', 'A', 'S', 'E', '_', 'N', 'O', 'N', 'E', '_', 'E', 'A', 'B', 'I', '.', 'h', 't', 'm', 'l'],
  ['[', 't', 'h', 'u', 'm', 'b', 'v', '8', 'm', '.', 'b', 'a', 's', 'e', '-', 'n', 'u', 't', 't', 'x', '-', 'e', 'a', 'b', 'i', ']', ':', ' ', 'h', 't', 't', 'p', 's', ':', '/', '/', 'd', 'o', 'c', 's', '.', 'r', 's', '/', 'p', 'l', 'a', 't', 'f', 'o', 'r', 'm', 's', '/', 'l', 'a', 't', 'e', 's', 't', '/', 'p', 'l', 'a', 't', 'f', 'o', 'r', 'm', 's', '/', 'p', 'l', 'a', 't', 'f', 'o', 'r', 'm', '/', 'c', 'o', 'n', 's', 't', 'a', 'n', 't', '.', 'T', 'H', 'U', 'M', 'B', 'V', '8', 'M', '.', 'B', 'A', 'S', 'E', '_', 'N', 'U', 'T', 'T', 'X', '_', 'E', 'A', 'B', 'I', '.', 'h', 't', 'm', 'l'],
  ['[', 't', 'h', 'u', 'm', 'b', 'v', '8', 'm', '.', 'm', 'a', 'i', 'n', '-', 'n', 'o', 'n', 'e', '-', 'e', 'a', 'b', 'i', ']', ':', ' ', 'h', 't', 't', 'p', 's', ':', '/', '/', 'd', 'o', 'c', 's', '.', 'r', 's', '/', 'p', 'l', 'a', 't', 'f', 'o', 'r', 'm', 's', '/', 'l', 'a', 't', 'e', 's', 't', '/', 'p', 'l', 'a', 't', 'f', 'o', 'r', 'm', 's', '/', 'p', 'l', 'a', 't', 'f', 'o', 'r', 'm', '/', 'c', 'o', 'n', 's', 't', 'a', 'n', 't', '.', 'T', 'H', 'U', 'M', 'B', 'V', '8', 'M', '.', 'M', 'A', 'I', 'N', '_', 'N', 'O', 'N', 'E', '_', 'E', 'A', 'B', 'I', '.', 'h', 't', 'm', 'l'],
  ['[', 't', 'h', 'u', 'm', 'b', 'v', '8', 'm', '.', 'm', 'a', 'i', 'n', '-', 'n', 'o', 'n', 'e', '-', 'e', 'a', 'b', 'i', 'h', 'f', ']', ':', ' ', 'h', 't', 't', 'p', 's', ':', '/', '/', 'd', 'o', 'c', 's', '.', 'r', 's', '/', 'p', 'l', 'a', 't', 'f', 'o', 'r', 'm', 's', '/', 'l', 'a', 't', 'e', 's', 't', '/', 'p', 'l', 'a', 't', 'f', 'o', 'r', 'm', 's', '/', 'p', 'l', 'a', 't', 'f', 'o', 'r', 'm', '/', 'c', 'o', 'n', 's', 't', 'a', 'n', 't', '.', 'T', 'H', 'U', 'M', 'B', 'V', '8', 'M', '.', 'M', 'A', 'I', 'N', '_', 'N', 'O', 'N', 'E', '_', 'E', 'A', 'B', 'I', 'H', 'F', '.', 'h', 't', 'm', 'l'],
  ['[', 't', 'h', 'u', 'm', 'b', 'v', '8', 'm', '.', 'm', 'a', 'i', 'n', '-', 'n', 'u', 't', 't', 'x', '-', 'e', 'a', 'b', 'i', ']', ':', ' ', 'h', 't', 't', 'p', 's', ':', '/', '/', 'd', 'o', 'c', 's', '.', 'r', 's', '/', 'p', 'l', 'a', 't', 'f', 'o', 'r', 'm', 's', '/', 'l', 'a', 't', 'e', 's', 't', '/', 'p', 'l', 'a', 't', 'f', 'o', 'r', 'm', 's', '/', 'p', 'l', 'a', 't', 'f', 'o', 'r', 'm', '/', 'c', 'o', 'n', 's', 't', 'a', 'n', 't', '.', 'T', 'H', 'U', 'M', 'B', 'V', '8', 'M', '.', 'M', 'A', 'I', 'N', '_', 'N', 'U', 'T', 'T', 'X', '_', 'E', 'A', 'B', 'I', '.', 'h', 't', 'm', 'l'],
  ['[', 't', 'h', 'u', 'm', 'b', 'v', '8', 'm', '.', 'm', 'a', 'i', 'n', '-', 'n', 'u', 't', 't', 'x', '-', 'e', 'a', 'b', 'i', 'h', 'f', ']', ':', ' ', 'h', 't', 't', 'p', 's', ':', '/', '/', 'd', 'o', 'c', 's', '.', 'r', 's', '/', 'p', 'l', 'a', 't', 'f', 'o', 'r', 'm', 's', '/', 'l', 'a', 't', 'e', 's', 't', '/', 'p', 'l', 'a', 't', 'f', 'o', 'r', 'm', 's', '/', 'p', 'l', 'a', 't', 'f', 'o', 'r', 'm', '/', 'c', 'o', 'n', 's', 't', 'a', 'n', 't', '.', 'T', 'H', 'U', 'M', 'B', 'V', '8', 'M', '.', 'M', 'A', 'I', 'N', '_', 'N', 'U', 'T', 'T', 'X', '_', 'E', 'A', 'B', 'I', 'H', 'F', '.', 'h', 't', 'm', 'l'],
  ['[', 't', 'h', 'u', 'm', 'b', 'v', '8', 'r', '-', 'n', 'o', 'n', 'e', '-', 'e', 'a', 'b', 'i', 'h', 'f', ']', ':', ' ', 'h', 't', 't', 'p', 's', ':', '/', '/', 'd', 'o', 'c', 's', '.', 'r', 's', '/', 'p', 'l', 'a', 't', 'f', 'o', 'r', 'm', 's', '/', 'l', 'a', 't', 'e', 's', 't', '/', 'p', 'l', 'a', 't', 'f', 'o', 'r', 'm', 's', '/', 'p', 'l', 'a', 't', 'f', 'o', 'r', 'm', '/', 'c', 'o', 'n', 's', 't', 'a', 'n', 't', '.', 'T', 'H', 'U', 'M', 'B', 'V', '8', 'R', '_', 'N', 'O', 'N', 'E', '_', 'E', 'A', 'B', 'I', 'H', 'F', '.', 'h', 't', 'm', 'l'],
  ['[', 'w', 'a', 's', 'm', '3', '2', '-', 'u', 'n', 'k', 'n', 'o', 'w', 'n', '-', 'e', 'm', 's', 'c', 'r', 'i', 'p', 't', 'e', 'n', ']', ':', ' ', 'h', 't', 't', 'p', 's', ':', '/', '/', 'd', 'o', 'c', 's', '.', 'r', 's', '/', 'p', 'l', 'a', 't', 'f', 'o', 'r', 'm', 's', '/', 'l', 'a', 't', 'e', 's', 't', '/', 'p', 'l', 'a', 't', 'f', 'o', 'r', 'm', 's', '/', 'p', 'l', 'a', 't', 'f', 'o', 'r', 'm', '/', 'c', 'o', 'n', 's', 't', 'a', 'n', 't', '.', 'W', 'A', 'S', 'M', '3', '2', '_', 'U', 'N', 'K', 'N', 'O', 'W', 'N', '_', 'E', 'M', 'S', 'C', 'R', 'I', 'P', 'T', 'E', 'N', '.', 'h', 't', 'm', 'l'],
  ['[', 'w', 'a', 's', 'm', '3', '2', '-', 'u', 'n', 'k', 'n', 'o', 'w', 'n', '-', 'u', 'n', 'k', 'n', 'o', 'w', 'n', ']', ':', ' ', 'h', 't', 't', 'p', 's', ':', '/', '/', 'd', 'o', 'c', 's', '.', 'r', 's', '/', 'p', 'l', 'a', 't', 'f', 'o', 'r', 'm', 's', '/', 'l', 'a', 't', 'e', 's', 't', '/', 'p', 'l', 'a', 't', 'f', 'o', 'r', 'm', 's', '/', 'p', 'l', 'a', 't', 'f', 'o', 'r', 'm', '/', 'c', 'o', 'n', 's', 't', 'a', 'n', 't', '.', 'W', 'A', 'S', 'M', '3', '2', '_', 'U', 'N', 'K', 'N', 'O', 'W', 'N', '_', 'U', 'N', 'K', 'N', 'O', 'W', 'N', '.', 'h', 't', 'm', 'l'],
  ['[', 'w', 'a', 's', 'm', '3', '2', '-', 'w', 'a', 'l', 'i', '-', 'l', 'i', 'n', 'u', 'x', '-', 'm', 'u', 's', 'l', ']', ':', ' ', 'h', 't', 't', 'p', 's', ':', '/', '/', 'd', 'o', 'c', 's', '.', 'r', 's', '/', 'p', 'l', 'a', 't', 'f', 'o', 'r', 'm', 's', '/', 'l', 'a', 't', 'e', 's', 't', '/', 'p', 'l', 'a', 't', 'f', 'o', 'r', 'm', 's', '/', 'p', 'l', 'a', 't', 'f', 'o', 'r', 'm', '/', 'c', 'o', 'n', 's', 't', 'a', 'n', 't', '.', 'W', 'A', 'S', 'M', '3', '2', '_', 'W', 'A', 'L', 'I', '_', 'L', 'I', 'N', 'U', 'X', '_', 'M', 'U', 'S', 'L', '.', 'h', 't', 'm', 'l'],
  ['[', 'w', 'a', 's', 'm', '3', '2', '-', 'w', 'a', 's', 'i', 'p', '1', ']', ':', ' ', 'h', 't', 't', 'p', 's', ':', '/', '/', 'd', 'o', 'c', 's', '.', 'r', 's', '/', 'p', 'l', 'a', 't', 'f', 'o', 'r', 'm', 's', '/', 'l', 'a', 't', 'e', 's', 't', '/', 'p', 'l', 'a', 't', 'f', 'o', 'r', 'm', 's', '/', 'p', 'l', 'a', 't', 'f', 'o', 'r', 'm', '/', 'c', 'o', 'n', 's', 't', 'a', 'n', 't', '.', 'W', 'A', 'S', 'M', '3', '2', '_', 'W', 'A', 'S', 'I', 'P', '1', '.', 'h', 't', 'm', 'l'],
  ['[', 'w', 'a', 's', 'm', '3', '2', '-', 'w', 'a', 's', 'i', 'p', '1', '-', 't', 'h', 'r', 'e', 'a', 'd', 's', ']', ':', ' ', 'h', 't', 't', 'p', 's', ':', '/', '/', 'd', 'o', 'c', 's', '.', 'r', 's', '/', 'p', 'l', 'a', 't', 'f', 'o', 'r', 'm', 's', '/', 'l', 'a', 't', 'e', 's', 't', '/', 'p', 'l', 'a', 't', 'f', 'o', 'r', 'm', 's', '/', 'p', 'l', 'a', 't', 'f', 'o', 'r', 'm', '/', 'c', 'o', 'n', 's', 't', 'a', 'n', 't', '.', 'W', 'A', 'S', 'M', '3', '2', '_', 'W', 'A', 'S', 'I', 'P', '1', '_', 'T', 'H', 'R', 'E', 'A', 'D', 'S', '.', 'h', 't', 'm', 'l'],
  ['[', 'w', 'a', 's', 'm', '3', '2', '-', 'w', 'a', 's', 'i', 'p', '2', ']', ':', ' ', 'h', 't', 't', 'p', 's', ':', '/', '/', 'd', 'o', 'c', 's', '.', 'r', 's', '/', 'p', 'l', 'a', 't', 'f', 'o', 'r', 'm', 's', '/', 'l', 'a', 't', 'e', 's', 't', '/', 'p', 'l', 'a', 't', 'f', 'o', 'r', 'm', 's', '/', 'p', 'l', 'a', 't', 'f', 'o', 'r', 'm', '/', 'c', 'o', 'n', 's', 't', 'a', 'n', 't', '.', 'W', 'A', 'S', 'M', '3', '2', '_', 'W', 'A', 'S', 'I', 'P', '2', '.', 'h', 't', 'm', 'l'],
  ['[', 'w', 'a', 's', 'm', '3', '2', '-', 'w', 'a', 's', 'i', 'p', '3', ']', ':', ' ', 'h', 't', 't', 'p', 's', ':', '/', '/', 'd', 'o', 'c', 's', '.', 'r', 's', '/', 'p', 'l', 'a', 't', 'f', 'o', 'r', 'm', 's', '/', 'l', 'a', 't', 'e', 's', 't', '/', 'p', 'l', 'a', 't', 'f', 'o', 'r', 'm', 's', '/', 'p', 'l', 'a', 't', 'f', 'o', 'r', 'm', '/', 'c', 'o', 'n', 's', 't', 'a', 'n', 't', '.', 'W', 'A', 'S', 'M', '3', '2', '_', 'W', 'A', 'S', 'I', 'P', '3', '.', 'h', 't', 'm', 'l'],
  ['[', 'w', 'a', 's', 'm', '3', '2', 'v', '1', '-', 'n', 'o', 'n', 'e', ']', ':', ' ', 'h', 't', 't', 'p', 's', ':', '/', '/', 'd', 'o', 'c', 's', '.', 'r', 's', '/', 'p', 'l', 'a', 't', 'f', 'o', 'r', 'm', 's', '/', 'l', 'a', 't', 'e', 's', 't', '/', 'p', 'l', 'a', 't', 'f', 'o', 'r', 'm', 's', '/', 'p', 'l', 'a', 't', 'f', 'o', 'r', 'm', '/', 'c', 'o', 'n', 's', 't', 'a', 'n', 't', '.', 'W', 'A', 'S', 'M', '3', '2', 'V', '1', '_', 'N', 'O', 'N', 'E', '.', 'h', 't', 'm', 'l'],
  ['[', 'w', 'a', 's', 'm', '6', '4', '-', 'u', 'n', 'k', 'n', 'o', 'w', 'n', '-', 'u', 'n', 'k', 'n', 'o', 'w', 'n', ']', ':', ' ', 'h', 't', 't', 'p', 's', ':', '/', '/', 'd', 'o', 'c', 's', '.', 'r', 's', '/', 'p', 'l', 'a', 't', 'f', 'o', 'r', 'm', 's', '/', 'l', 'a', 't', 'e', 's', 't', '/', 'p', 'l', 'a', 't', 'f', 'o', 'r', 'm', 's', '/', 'p', 'l', 'a', 't', 'f', 'o', 'r', 'm', '/', 'c', 'o', 'n', 's', 't', 'a', 'n', 't', '.', 'W', 'A', 'S', 'M', '6', '4', '_', 'U', 'N', 'K', 'N', 'O', 'W', 'N', '_', 'U', 'N', 'K', 'N', 'O', 'W', 'N', '.', 'h', 't', 'm', 'l'],
  ['[', 'x', '8', '6', '_', '6', '4', '-', 'a', 'p', 'p', 'l', 'e', '-', 'd', 'a', 'r', 'w', 'i', 'n', ']', ':', ' ', 'h', 't', 't', 'p', 's', ':', '/', '/', 'd', 'o', 'c', 's', '.', 'r', 's', '/', 'p', 'l', 'a', 't', 'f', 'o', 'r', 'm', 's', '/', 'l', 'a', 't', 'e', 's', 't', '/', 'p', 'l', 'a', 't', 'f', 'o', 'r', 'm', 's', '/', 'p', 'l', 'a', 't', 'f', 'o', 'r', 'm', '/', 'c', 'o', 'n', 's', 't', 'a', 'n', 't', '.', 'X', '8', '6', '_', '6', '4', '_', 'A', 'P', 'P', 'L', 'E', '_', 'D', 'A', 'R', 'W', 'I', 'N', '.', 'h', 't', 'm', 'l'],
  ['[', 'x', '8', '6', '_', '6', '4', '-', 'a', 'p', 'p', 'l', 'e', '-', 'i', 'o', 's', ']', ':', ' ', 'h', 't', 't', 'p', 's', ':', '/', '/', 'd', 'o', 'c', 's', '.', 'r', 's', '/', 'p', 'l', 'a', 't', 'f', 'o', 'r', 'm', 's', '/', 'l', 'a', 't', 'e', 's', 't', '/', 'p', 'l', 'a', 't', 'f', 'o', 'r', 'm', 's', '/', 'p', 'l', 'a', 't', 'f', 'o', 'r', 'm', '/', 'c', 'o', 'n', 's', 't', 'a', 'n', 't', '.', 'X', '8', '6', '_', '6', '4', '_', 'A', 'P', 'P', 'L', 'E', '_', 'I', 'O', 'S', '.', 'h', 't', 'm', 'l'],
  ['[', 'x', '8', '6', '_', '6', '4', '-', 'a', 'p', 'p', 'l', 'e', '-', 'i', 'o', 's', '-', 'm', 'a', 'c', 'a', 'b', 'i', ']', ':', ' ', 'h', 't', 't', 'p', 's', ':', '/', '/', 'd', 'o', 'c', 's', '.', 'r', 's', '/', 'p', 'l', 'a', 't', 'f', 'o', 'r', 'm', 's', '/', 'l', 'a', 't', 'e', 's', 't', '/', 'p', 'l', 'a', 't', 'f', 'o', 'r', 'm', 's', '/', 'p', 'l', 'a', 't', 'f', 'o', 'r', 'm', '/', 'c', 'o', 'n', 's', 't', 'a', 'n', 't', '.', 'X', '8', '6', '_', '6', '4', '_', 'A', 'P', 'P', 'L', 'E', '_', 'I', 'O', 'S', '_', 'M', 'A', 'C', 'A', 'B', 'I', '.', 'h', 't', 'm', 'l']]

/-- `platforms/README.md:688-712`. -/
def readme25 : List Str := [
  ['[', 'x', '8', '6', '_', '6', '4', '-', 'a', 'p', 'p', 'l', 'e', '-', 't', 'v', 'o', 's', ']', ':', ' ', 'h', 't', 't', 'p', 's', ':', '/', '/', 'd', 'o', 'c', 's', '.', 'r', 's', '/', 'p', 'l', 'a', 't', 'f', 'o', 'r', 'm', 's', '/', 'l', 'a', 't', 'e', 's', 't', '/', 'p', 'l', 'a', 't', 'f', 'o', 'r', 'm', 's', '/', 'p', 'l', 'a', 't', 'f', 'o', 'r', 'm', '/', 'c', 'o', 'n', 's', 't', 'a', 'n', 't', '.', 'X', '8', '6', '_', '6', '4', '_', 'A', 'P', 'P', 'L', 'E', '_', 'T', 'V', 'O', 'S', '.', 'h', 't', 'm', 'l'],
  ['[', 'x', '8', '6', '_', '6', '4', '-', 'a', 'p', 'p', 'l', 'e', '-', 'w', 'a', 't', 'c', 'h', 'o', 's', '-', 's', 'i', 'm', ']', ':', ' ', 'h', 't', 't', 'p', 's', ':', '/', '/', 'd', 'o', 'c', 's', '.', 'r', 's', '/', 'p', 'l', 'a', 't', 'f', 'o', 'r', 'm', 's', '/', 'l', 'a', 't', 'e', 's', 't', '/', 'p', 'l', 'a', 't', 'f', 'o', 'r', 'm', 's', '/', 'p', 'l', 'a', 't', 'f', 'o', 'r', 'm', '/', 'c', 'o', 'n', 's', 't', 'a', 'n', 't', '.', 'X', '8', '6', '_', '6', '4', '_', 'A', 'P', 'P', 'L', 'E', '_', 'W', 'A', 'T', 'C', 'H', 'O', 'S', '_', 'S', 'I', 'M', '.', 'h', 't', 'm', 'l'],
  ['[', 'x', '8', '6', '_', '6', '4', '-', 'f', 'o', 'r', 't', 'a', 'n', 'i', 'x', '-', 'u', 'n', 'k', 'n', 'o', 'w', 'n', '-', 's', 'g', 'x', ']', ':', ' ', 'h', 't', 't', 'p', 's', ':', '/', '/', 'd', 'o', 'c', 's', '.', 'r', 's', '/', 'p', 'l', 'a', 't', 'f', 'o', 'r', 'm', 's', '/', 'l', 'a', 't', 'e', 's', 't', '/', 'p', 'l', 'a', 't', 'f', 'o', 'r', 'm', 's', '/', 'p', 'l', 'a', 't', 'f', 'o', 'r', 'm', '/', 'c', 'o', 'n', 's', 't', 'a', 'n', 't', '.', 'X', '8', '6', '_', '6', '4', '_', 'F', 'O', 'R', 'T', 'A', 'N', 'I', 'X', '_', 'U', 'N', 'K', 'N', 'O', 'W', 'N', '_', 'S', 'G', 'X', '.', 'h', 't', 'm', 'l'],
  ['[', 'x', '8', '6', '_', '6', '4', '-', 'l', 'i', 'n', 'u', 'x', '-', 'a', 'n', 'd', 'r', 'o', 'i', 'd', ']', ':', ' ', 'h', 't', 't', 'p', 's', ':', '/', '/', 'd', 'o', 'c', 's', '.', 'r', 's', '/', 'p', 'l', 'a', 't', 'f', 'o', 'r', 'm', 's', '/', 'l', 'a', 't', 'e', 's', 't', '/', 'p', 'l', 'a', 't', 'f', 'o', 'r', 'm', 's', '/', 'p', 'l', 'a', 't', 'f', 'o', 'r', 'm', '/', 'c', 'o', 'n', 's', 't', 'a', 'n', 't', '.', 'X', '8', '6', '_', '6', '4', '_', 'L', 'I', 'N', 'U', 'X', '_', 'A', 'N', 'D', 'R', 'O', 'I', 'D', '.', 'h', 't', 'm', 'l'],
  ['[', 'x', '8', '6', '_', '6', '4', '-', 'l', 'y', 'n', 'x', '-', 'l', 'y', 'n', 'x', 'o', 's', '1', '7', '8', ']', ':', ' ', 'h', 't', 't', 'p', 's', ':', '/', '/', 'd', 'o', 'c', 's', '.', 'r', 's', '/', 'p', 'l', 'a', 't', 'f', 'o', 'r', 'm', 's', '/', 'l', 'a', 't', 'e', 's', 't', '/', 'p', 'l', 'a', 't', 'f', 'o', 'r', 'm', 's', '/', 'p', 'l', 'a', 't', 'f', 'o', 'r', 'm', '/', 'c', 'o', 'n', 's', 't', 'a', 'n', 't', '.', 'X', '8', '6', '_', '6', '4', '_', 'L', 'Y', 'N', 'X', '_', 'L', 'Y', 'N', 'X', 'O', 'S', '1', '7', '8', '.', 'h', 't', 'm', 'l'],
  ['[', 'x', '8', '6', '_', '6', '4', '-', 'o', 'e', '-', 'l', 'i', 'n', 'u', 'x', '-', 'g', 'n', 'u', ']', ':', ' ', 'h', 't', 't', 'p', 's', ':', '/', '/', 'd', 'o', 'c', 's', '.', 'r', 's', '/', 'p', 'l', 'a', 't', 'f', 'o', 'r', 'm', 's', '/', 'l', 'a', 't', 'e', 's', 't', '/', 'p', 'l', 'a', 't', 'f', 'o', 'r', 'm', 's', '/', 'p', 'l', 'a', 't', 'f', 'o', 'r', 'm', '/', 'c', 'o', 'n', 's', 't', 'a', 'n', 't', '.', 'X', '8', '6', '_', '6', '4', '_', 'O', 'E', '_', 'L', 'I', 'N', 'U', 'X', '_', 'G', 'N', 'U', '.', 'h', 't', 'm', 'l'],
  ['[', 'x', '8', '6', '_', '6', '4', '-', 'p', 'c', '-', 'c', 'y', 'g', 'w', 'i', 'n', ']', ':', ' ', 'h', 't', 't', 'p', 's', ':', '/', '/', 'd', 'o', 'c', 's', '.', 'r', 's', '/', 'p', 'l', 'a', 't', 'f', 'o', 'r', 'm', 's', '/', 'l', 'a', 't', 'e', 's', 't', '/', 'p', 'l', 'a', 't', 'f', 'o', 'r', 'm', 's', '/', 'p', 'l', 'a', 't', 'f', 'o', 'r', 'm', '/', 'c', 'o', 'n', 's', 't', 'a', 'n', 't', '.', 'X', '8', '6', '_', '6', '4', '_', 'P', 'C', '_', 'C', 'Y', 'G', 'W', 'I', 'N', '.', 'h', 't', 'm', 'l'],
  ['[', 'x', '8', '6', '_', '6', '4', '-', 'p', 'c', '-', 'n', 't', 'o', '-', 'q', 'n', 'x', '7', '1', '0', ']', ':', ' ', 'h', 't', 't', 'p', 's', ':', '/', '/', 'd', 'o', 'c', 's', '.', 'r', 's', '/', 'p', 'l', 'a', 't', 'f', 'o', 'r', 'm', 's', '/', 'l', 'a', 't', 'e', 's', 't', '/', 'p', 'l', 'a', 't', 'f', 'o', 'r', 'm', 's', '/', 'p', 'l', 'a', 't', 'f', 'o', 'r', 'm', '/', 'c', 'o', 'n', 's', 't', 'a', 'n', 't', '.', 'X', '8', '6', '_', '6', '4', '_', 'P', 'C', '_', 'N', 'T', 'O', '_', 'Q', 'N', 'X', '7', '1', '0', '.', 'h', 't', 'm', 'l'],
  ['[', 'x', '8', '6', '_', '6', '4', '-', 'p', 'c', '-', 'n', 't', 'o', '-', 'q', 'n', 'x', '7', '1', '0', '_', 'i', 'o', 's', 'o', 'c', 'k', ']', ':', ' ', 'h', 't', 't', 'p', 's', ':', '/', '/', 'd', 'o', 'c', 's', '.', 'r', 's', '/', 'p', 'l', 'a', 't', 'f', 'o', 'r', 'm', 's', '/', 'l', 'a', 't', 'e', 's', 't', '/', 'p', 'l', 'a', 't', 'f', 'o', 'r', 'm', 's', '/', 'p', 'l', 'a', 't', 'f', 'o', 'r', 'm', '/', 'c', 'o', 'n', 's', 't', 'a', 'n', 't', '.', 'X', '8', '6', '_', '6', '4', '_', 'P', 'C', '_', 'N', 'T', 'O', '_', 'Q', 'N', 'X', '7', '1', '0', '_', 'I', 'O', 'S', 'O', 'C', 'K', '.', 'h', 't', 'm', 'l'],
  ['[', 'x', '8', '6', '_', '6', '4', '-', 'p', 'c', '-', 'q', 'n', 'x', ']', ':', ' ', 'h', 't', 't', 'p', 's', ':', '/', '/', 'd', 'o', 'c', 's', '.', 'r', 's', '/', 'p', 'l', 'a', 't', 'f', 'o', 'r', 'm', 's', '/', 'l', 'a', 't', 'e', 's', 't', '/', 'p', 'l', 'a', 't', 'f', 'o', 'r', 'm', 's', '/', 'p', 'l', 'a', 't', 'f', 'o', 'r', 'm', '/', 'c', 'o', 'n', 's', 't', 'a', 'n', 't', '.', 'X', '8', '6', '_', '6', '4', '_', 'P', 'C', '_', 'Q', 'N', 'X', '.', 'h', 't', 'm', 'l'],
  ['[', 'x', '8', '6', '_', '6', '4', '-', 'p', 'c', '-', 's', 'o', 'l', 'a', 'r', 'i', 's', ']', ':', ' ', 'h', 't', 't', 'p', 's', ':', '/', '/', 'd', 'o', 'c', 's', '.', 'r', 's', '/', 'p', 'l', 'a', 't', 'f', 'o', 'r', 'm', 's', '/', 'l', 'a', 't', 'e', 's', 't', '/', 'p', 'l', 'a', 't', 'f', 'o', 'r', 'm', 's', '/', 'p', 'l', 'a', 't', 'f', 'o', 'r', 'm', '/', 'c', 'o', 'n', 's', 't', 'a', 'n', 't', '.', 'X', '8', '6', '_', '6', '4', '_', 'P', 'C', '_', 'S', 'O', 'L', 'A', 'R', 'I', 'S', '.', 'h', 't', 'm', 'l'],
  ['[', 'x', '8', '6', '_', '6', '4', '-', 'p', 'c', '-', 'w', 'i', 'n', 'd', 'o', 'w', 's', '-', 'g', 'n', 'u', ']', ':', ' ', 'h', 't', 't', 'p', 's', ':', '/', '/', 'd', 'o', 'c', 's', '.', 'r', 's', '/', 'p', 'l', 'a', 't', 'f', 'o', 'r', 'm', 's', '/', 'l', 'a', 't', 'e', 's', 't', '/', 'p', 'l', 'a', 't', 'f', 'o', 'r', 'm', 's', '/', 'p', 'l', 'a', 't', 'f', 'o', 'r', 'm', '/', 'c', 'o', 'n', 's', 't', 'a', 'n', 't', '.', 'X', '8', '6', '_', '6', '4', '_', 'P', 'C', '_', 'W', 'I', 'N', 'D', 'O', 'W', 'S', '_', 'G', 'N', 'U', '.', 'h', 't', 'm', 'l'],
  ['[', 'x', '8', '6', '_', '6', '4', '-', 'p', 'c', '-', 'w', 'i', 'n', 'd', 'o', 'w', 's', '-', 'g', 'n', 'u', 'l', 'l', 'v', 'm', ']', ':', ' ', 'h', 't', 't', 'p', 's', ':', '/', '/', 'd', 'o', 'c', 's', '.', 'r', 's', '/', 'p', 'l', 'a', 't', 'f', 'o', 'r', 'm', 's', '/', 'l', 'a', 't', 'e', 's', 't', '/', 'p', 'l', 'a', 't', 'f', 'o', 'r', 'm', 's', '/', 'p', 'l', 'a', 't', 'f', 'o', 'r', 'm', '/', 'c', 'o', 'n', 's', 't', 'a', 'n', 't', '.', 'X', '8', '6', '_', '6', '4', '_', 'P', 'C', '_', 'W', 'I', 'N', 'D', 'O', 'W', 'S', '_', 'G', 'N', 'U', 'L', 'L', 'V', 'M', '.', 'h', 't', 'm', 'l'],
  ['[', 'x', '8', '6', '_', '6', '4', '-', 'p', 'c', '-', 'w', 'i', 'n', 'd', 'o', 'w', 's', '-', 'm', 's', 'v', 'c', ']', ':', ' ', 'h', 't', 't', 'p', 's', ':', '/', '/', 'd', 'o', 'c', 's', '.', 'r', 's', '/', 'p', 'l', 'a', 't', 'f', 'o', 'r', 'm', 's', '/', 'l', 'a', 't', 'e', 's', 't', '/', 'p', 'l', 'a', 't', 'f', 'o', 'r', 'm', 's', '/', 'p', 'l', 'a', 't', 'f', 'o', 'r', 'm', '/', 'c', 'o', 'n', 's', 't', 'a', 'n', 't', '.', 'X', '8', '6', '_', '6', '4', '_', 'P', 'C', '_', 'W', 'I', 'N', 'D', 'O', 'W', 'S', '_', 'M', 'S', 'V', 'C', '.', 'h', 't', 'm', 'l'],
  ['[', 'x', '8', '6', '_', '6', '4', '-', 'u', 'n', 'i', 'k', 'r', 'a', 'f', 't', '-', 'l', 'i', 'n', 'u', 'x', '-', 'm', 'u', 's', 'l', ']', ':', ' ', 'h', 't', 't', 'p', 's', ':', '/', '/', 'd', 'o', 'c', 's', '.', 'r', 's', '/', 'p', 'l', 'a', 't', 'f', 'o', 'r', 'm', 's', '/', 'l', 'a', 't', 'e', 's', 't', '/', 'p', 'l', 'a', 't', 'f', 'o', 'r', 'm', 's', '/', 'p', 'l', 'a', 't', 'f', 'o', 'r', 'm', '/', 'c', 'o', 'n', 's', 't', 'a', 'n', 't', '.', 'X', '8', '6', '_', '6', '4', '_', 'U', 'N', 'I', 'K', 'R', 'A', 'F', 'T', '_', 'L', 'I', 'N', 'U', 'X', '_', 'M', 'U', 'S', 'L', '.', 'h', 't', 'm', 'l'],
  ['[', 'x', '8', '6', '_', '6', '4', '-', 'u', 'n', 'k', 'n', 'o', 'w', 'n', '-', 'd', 'r', 'a', 'g', 'o', 'n', 'f', 'l', 'y', ']', ':', ' ', 'h', 't', 't', 'p', 's', ':', '/', '/', 'd', 'o', 'c', 's', '.', 'r', 's', '/', 'p', 'l', 'a', 't', 'f', 'o', 'r', 'm', 's', '/', 'l', 'a', 't', 'e', 's', 't', '/', 'p', 'l', 'a', 't', 'f', 'o', 'r', 'm', 's', '/', 'p', 'l', 'a', 't', 'f', 'o', 'r', 'm', '/', 'c', 'o', 'n', 's', 't', 'a', 'n', 't', '.', 'X', '8', '6', '_', '6', '4', '_', 'U', 'N', 'K', 'N', 'O', 'W', 'N', '_', 'D', 'R', 'A', 'G', 'O', 'N', 'F', 'L', 'Y', '.', 'h', 't', 'm', 'l'],
  ['[', 'x', '8', '6', '_', '6', '4', '-', 'u', 'n', 'k', 'n', 'o', 'w', 'n', '-', 'f', 'r', 'e', 'e', 'b', 's', 'd', ']', ':', ' ', 'h', 't', 't', 'p', 's', ':', '/', '/', 'd', 'o', 'c', 's', '.', 'r', 's', '/', 'p', 'l', 'a', 't', 'f', 'o', 'r', 'm', 's', '/', 'l', 'a', 't', 'e', 's', 't', '/', 'p', 'l', 'a', 't', 'f', 'o', 'r', 'm', 's', '/', 'p', 'l', 'a', 't', 'f', 'o', 'r', 'm', '/', 'c', 'o', 'n', 's', 't', 'a', 'n', 't', '.', 'X', '8', '6', '_', '6', '4', '_', 'U', 'N', 'K', 'N', 'O', 'W', 'N', '_', 'F', 'R', 'E', 'E', 'B', 'S', 'D', '.', 'h', 't', 'm', 'l'],
  ['[', 'x', '8', '6', '_', '6', '4', '-', 'u', 'n', 'k', 'n', 'o', 'w', 'n', '-', 'f', 'u', 'c', 'h', 's', 'i', 'a', ']', ':', ' ', 'h', 't', 't', 'p', 's', ':', '/', '/', 'd', 'o', 'c', 's', '.', 'r', 's', '/', 'p', 'l', 'a', 't', 'f', 'o', 'r', 'm', 's', '/', 'l', 'a', 't', 'e', 's', 't', '/', 'p', 'l', 'a', 't', 'f', 'o', 'r', 'm', 's', '/', 'p', 'l', 'a', 't', 'f', 'o', 'r', 'm', '/', 'c', 'o', 'n', 's', 't', 'a', 'n', 't', '.', 'X', '8', '6', '_', '6', '4', '_', 'U', 'N', 'K', 'N', 'O', 'W', 'N', '_', 'F', 'U', 'C', 'H', 'S', 'I', 'A', '.', 'h', 't', 'm', 'l'],
  ['[', 'x', '8', '6', '_', '6', '4', '-', 'u', 'n', 'k', 'n', 'o', 'w', 'n', '-', 'h', 'a', 'i', 'k', 'u', ']', ':', ' ', 'h', 't', 't', 'p', 's', ':', '/', '/', 'd', 'o', 'c', 's', '.', 'r', 's', '/', 'p', 'l', 'a', 't', 'f', 'o', 'r', 'm', 's', '/', 'l', 'a', 't', 'e', 's', 't', '/', 'p', 'l', 'a', 't', 'f', 'o', 'r', 'm', 's', '/', 'p', 'l', 'a', 't', 'f', 'o', 'r', 'm', '/', 'c', 'o', 'n', 's', 't', 'a', 'n', 't', '.', 'X', '8', '6', '_', '6', '4', '_', 'U', 'N', 'K', 'N', 'O', 'W', 'N', '_', 'H', 'A', 'I', 'K', 'U', '.', 'h', 't', 'm', 'l'],
  ['[', 'x', '8', '6', '_', '6', '4', '-', 'u', 'n', 'k', 'n', 'o', 'w', 'n', '-', 'h', 'e', 'l', 'e', 'n', 'o', 's', ']', ':', ' ', 'h', 't', 't', 'p', 's', ':', '/', '/', 'd', 'o', 'c', 's', '.', 'r', 's', '/', 'p', 'l', 'a', 't', 'f', 'o', 'r', 'm', 's', '/', 'l', 'a', 't', 'e', 's', 't', '/', 'p', 'l', 'a', 't', 'f', 'o', 'r', 'm', 's', '/', 'p', 'l', 'a', 't', 'f', 'o', 'r', 'm', '/', 'c', 'o', 'n', 's', 't', 'a', 'n', 't', '.', 'X', '8', '6', '_', '6', '4', '_', 'U', 'N', 'K', 'N', 'O', 'W', 'N', '_', 'H', 'E', 'L', 'E', 'N', 'O', 'S', '.', 'h', 't', 'm', 'l'],
  ['[', 'x', '8', '6', '_', '6', '4', '-', 'u', 'n', 'k', 'n', 'o', 'w', 'n', '-', 'h', 'e', 'r', 'm', 'i', 't', ']', ':', ' ', 'h', 't', 't', 'p', 's', ':', '/', '/', 'd', 'o', 'c', 's', '.', 'r', 's', '/', 'p', 'l', 'a', 't', 'f', 'o', 'r', 'm', 's', '/', 'l', 'a', 't', 'e', 's', 't', '/', 'p', 'l', 'a', 't', 'f', 'o', 'r', 'm', 's', '/', 'p', 'l', 'a', 't', 'f', 'o', 'r', 'm', '/', 'c', 'o', 'n', 's', 't', 'a', 'n', 't', '.', 'X', '8', '6', '_', '6', '4', '_', 'U', 'N', 'K', 'N', 'O', 'W', 'N', '_', 'H', 'E', 'R', 'M', 'I', 'T', '.', 'h', 't', 'm', 'l'],
  ['[', 'x', '8', '6', '_', '6', '4', '-', 'u', 'n', 'k', 'n', 'o', 'w', 'n', '-', 'h', 'u', 'r', 'd', '-', 'g', 'n', 'u', ']', ':', ' ', 'h', 't', 't', 'p', 's', ':', '/', '/', 'd', 'o', 'c', 's', '.', 'r', 's', '/', 'p', 'l', 'a', 't', 'f', 'o', 'r', 'm', 's', '/', 'l', 'a', 't', 'e', 's', 't', '/', 'p', 'l', 'a', 't', 'f', 'o', 'r', 'm', 's', '/', 'p', 'l', 'a', 't', 'f', 'o', 'r', 'm', '/', 'c', 'o', 'n', 's', 't', 'a', 'n', 't', '.', 'X', '8', '6', '_', '6', '4', '_', 'U', 'N', 'K', 'N', 'O', 'W', 'N', '_', 'H', 'U', 'R', 'D', '_', 'G', 'N', 'U', '.', 'h', 't', 'm', 'l'],
  ['[', 'x', '8', '6', '_', '6', '4', '-', 'u', 'n', 'k', 'n', 'o', 'w', 'n', '-', 'i', 'l', 'l', 'u', 'm', 'o', 's', ']', ':', ' ', 'h', 't', 't', 'p', 's', ':', '/', '/', 'd', 'o', 'c', 's', '.', 'r', 's', '/', 'p', 'l', 'a', 't', 'f', 'o', 'r', 'm', 's', '/', 'l', 'a', 't', 'e', 's', 't', '/', 'p', 'l', 'a', 't', 'f', 'o', 'r', 'm', 's', '/', 'p', 'l', 'a', 't', 'f', 'o', 'r', 'm', '/', 'c', 'o', 'n', 's', 't', 'a', 'n', 't', '.', 'X', '8', '6', '_', '6', '4', '_', 'U', 'N', 'K', 'N', 'O', 'W', 'N', '_', 'I', 'L', 'L', 'U', 'M', 'O', 'S', '.', 'h', 't', 'm', 'l'],
  ['[', 'x', '8', '6', '_', '6', '4', '-', 'u', 'n', 'k', 'n', 'o', 'w', 'n', '-', 'l', '4', 'r', 'e', '-', 'u', 'c', 'l', 'i', 'b', 'c', ']', ':', ' ', 'h', 't', 't', 'p', 's', ':', '/', '/', 'd', 'o', 'c', 's', '.', 'r', 's', '/', 'p', 'l', 'a', 't', 'f', 'o', 'r', 'm', 's', '/', 'l', 'a', 't', 'e', 's', 't', '/', 'p', 'l', 'a', 't', 'f', 'o', 'r', 'm', 's', '/', 'p', 'l', 'a', 't', 'f', 'o', 'r', 'm', '/', 'c', 'o', 'n', 's', 't', 'a', 'n', 't', '.', 'X', '8', '6', '_', '6', '4', '_', 'U', 'N', 'K', 'N', 'O', 'W', 'N', '_', 'L', '4', 'R', 'E', '_', 'U', 'C', 'L', 'I', 'B', 'C', '.', 'h', 't', 'm', 'l'],
  ['[', 'x', '8', '6', '_', '6', '4', '-', 'u', 'n', 'k', 'n', 'o', 'w', 'n', '-', 'l', 'i', 'n', 'u', 'x', '-', 'g', 'n', 'u', ']', ':', ' ', 'h', 't', 't', 'p', 's', ':', '/', '/', 'd', 'o', 'c', 's', '.', 'r', 's', '/', 'p', 'l', 'a', 't', 'f', 'o', 'r', 'm', 's', '/', 'l', 'a', 't', 'e', 's', 't', '/', 'p', 'l', 'a', 't', 'f', 'o', 'r', 'm', 's', '/', 'p', 'l', 'a', 't', 'f', 'o', 'r', 'm', '/', 'c', 'o', 'n', 's', 't', 'a', 'n', 't', '.', 'X', '8', '6', '_', '6', '4', '_', 'U', 'N', 'K', 'N', 'O', 'W', 'N', '_', 'L', 'I', 'N', 'U', 'X', '_', 'G', 'N', 'U', '.', 'h', 't', 'm', 'l']]

/-- `platforms/README.md:713-737`. -/
def readme26 : List Str := [
  ['[', 'x', '8', '6', '_', '6', '4', '-', 'u', 'n', 'k', 'n', 'o', 'w', 'n', '-', 'l', 'i', 'n', 'u', 'x', '-', 'g', 'n', 'u', 'a', 's', 'a', 'n', ']', ':', ' ', 'h', 't', 't', 'p', 's', ':', '/', '/', 'd', 'o', 'c', 's', '.', 'r', 's', '/', 'p', 'l', 'a', 't', 'f', 'o', 'r', 'm', 's', '/', 'l', 'a', 't', 'e', 's', 't', '/', 'p', 'l', 'a', 't', 'f', 'o', 'r', 'm', 's', '/', 'p', 'l', 'a', 't', 'f', 'o', 'r', 'm', '/', 'c', 'o', 'n', 's', 't', 'a', 'n', 't', '.', 'X', '8', '6', '_', '6', '4', '_', 'U', 'N', 'K', 'N', 'O', 'W', 'N', '_', 'L', 'I', 'N', 'U', 'X', '_', 'G', 'N', 'U', 'A', 'S', 'A', 'N', '.', 'h', 't', 'm', 'l'],
  ['[', 'x', '8', '6', '_', '6', '4', '-', 'u', 'n', 'k', 'n', 'o', 'w', 'n', '-', 'l', 'i', 'n', 'u', 'x', '-', 'g', 'n', 'u', 'm', 's', 'a', 'n', ']', ':', ' ', 'h', 't', 't', 'p', 's', ':', '/', '/', 'd', 'o', 'c', 's', '.', 'r', 's', '/', 'p', 'l', 'a', 't', 'f', 'o', 'r', 'm', 's', '/', 'l', 'a', 't', 'e', 's', 't', '/', 'p', 'l', 'a', 't', 'f', 'o', 'r', 'm', 's', '/', 'p', 'l', 'a', 't', 'f', 'o', 'r', 'm', '/', 'c', 'o', 'n', 's', 't', 'a', 'n', 't', '.', 'X', '8', '6', '_', '6', '4', '_', 'U', 'N', 'K', 'N', 'O', 'W', 'N', '_', 'L', 'I', 'N', 'U', 'X', '_', 'G', 'N', 'U', 'M', 'S', 'A', 'N', '.', 'h', 't', 'm', 'l'],
  ['[', 'x', '8', '6', '_', '6', '4', '-', 'u', 'n', 'k', 'n', 'o', 'w', 'n', '-', 'l', 'i', 'n', 'u', 'x', '-', 'g', 'n', 'u', 't', 's', 'a', 'n', ']', ':', ' ', 'h', 't', 't', 'p', 's', ':', '/', '/', 'd', 'o', 'c', 's', '.', 'r', 's', '/', 'p', 'l', 'a', 't', 'f', 'o', 'r', 'm', 's', '/', 'l', 'a', 't', 'e', 's', 't', '/', 'p', 'l', 'a', 't', 'f', 'o', 'r', 'm', 's', '/', 'p', 'l', 'a', 't', 'f', 'o', 'r', 'm', '/', 'c', 'o', 'n', 's', 't', 'a', 'n', 't', '.', 'X', '8', '6', '_', '6', '4', '_', 'U', 'N', 'K', 'N', 'O', 'W', 'N', '_', 'L', 'I', 'N', 'U', 'X', '_', 'G', 'N', 'U', 'T', 'S', 'A', 'N', '.', 'h', 't', 'm', 'l'],
  ['[', 'x', '8', '6', '_', '6', '4', '-', 'u', 'n', 'k', 'n', 'o', 'w', 'n', '-', 'l', 'i', 'n', 'u', 'x', '-', 'g', 'n', 'u', 'x', '3', '2', ']', ':', ' ', 'h', 't', 't', 'p', 's', ':', '/', '/', 'd', 'o', 'c', 's', '.', 'r', 's', '/', 'p', 'l', 'a', 't', 'f', 'o', 'r', 'm', 's', '/', 'l', 'a', 't', 'e', 's', 't', '/', 'p', 'l', 'a', 't', 'f', 'o', 'r', 'm', 's', '/', 'p', 'l', 'a', 't', 'f', 'o', 'r', 'm', '/', 'c', 'o', 'n', 's', 't', 'a', 'n', 't', '.', 'X', '8', '6', '_', '6', '4', '_', 'U', 'N', 'K', 'N', 'O', 'W', 'N', '_', 'L', 'I', 'N', 'U', 'X', '_', 'G', 'N', 'U', 'X', '3', '2', '.', 'h', 't', 'm', 'l'],
  ['[', 'x', '8', '6', '_', '6', '4', '-', 'u', 'n', 'k', 'n', 'o', 'w', 'n', '-', 'l', 'i', 'n', 'u', 'x', '-', 'm', 'u', 's', 'l', ']', ':', ' ', 'h', 't', 't', 'p', 's', ':', '/', '/', 'd', 'o', 'c', 's', '.', 'r', 's', '/', 'p', 'l', 'a', 't', 'f', 'o', 'r', 'm', 's', '/', 'l', 'a', 't', 'e', 's', 't', '/', 'p', 'l', 'a', 't', 'f', 'o', 'r', 'm', 's', '/', 'p', 'l', 'a', 't', 'f', 'o', 'r', 'm', '/', 'c', 'o', 'n', 's', 't', 'a', 'n', 't', '.', 'X', '8', '6', '_', '6', '4', '_', 'U', 'N', 'K', 'N', 'O', 'W', 'N', '_', 'L', 'I', 'N', 'U', 'X', '_', 'M', 'U', 'S', 'L', '.', 'h', 't', 'm', 'l'],
  ['[', 'x', '8', '6', '_', '6', '4', '-', 'u', 'n', 'k', 'n', 'o', 'w', 'n', '-', 'l', 'i', 'n', 'u', 'x', '-', 'n', 'o', 'n', 'e', ']', ':', ' ', 'h', 't', 't', 'p', 's', ':', '/', '/', 'd', 'o', 'c', 's', '.', 'r', 's', '/', 'p', 'l', 'a', 't', 'f', 'o', 'r', 'm', 's', '/', 'l', 'a', 't', 'e', 's', 't', '/', 'p', 'l', 'a', 't', 'f', 'o', 'r', 'm', 's', '/', 'p', 'l', 'a', 't', 'f', 'o', 'r', 'm', '/', 'c', 'o', 'n', 's', 't', 'a', 'n', 't', '.', 'X', '8', '6', '_', '6', '4', '_', 'U', 'N', 'K', 'N', 'O', 'W', 'N', '_', 'L', 'I', 'N', 'U', 'X', '_', 'N', 'O', 'N', 'E', '.', 'h', 't', 'm', 'l'],
  ['[', 'x', '8', '6', '_', '6', '4', '-', 'u', 'n', 'k', 'n', 'o', 'w', 'n', '-', 'l', 'i', 'n', 'u', 'x', '-', 'o', 'h', 'o', 's', ']', ':', ' ', 'h', 't', 't', 'p', 's', ':', '/', '/', 'd', 'o', 'c', 's', '.', 'r', 's', '/', 'p', 'l', 'a', 't', 'f', 'o', 'r', 'm', 's', '/', 'l', 'a', 't', 'e', 's', 't', '/', 'p', 'l', 'a', 't', 'f', 'o', 'r', 'm', 's', '/', 'p', 'l', 'a', 't', 'f', 'o', 'r', 'm', '/', 'c', 'o', 'n', 's', 't', 'a', 'n', 't', '.', 'X', '8', '6', '_', '6', '4', '_', 'U', 'N', 'K', 'N', 'O', 'W', 'N', '_', 'L', 'I', 'N', 'U', 'X', '_', 'O', 'H', 'O', 'S', '.', 'h', 't', 'm', 'l'],
  ['[', 'x', '8', '6', '_', '6', '4', '-', 'u', 'n', 'k', 'n', 'o', 'w', 'n', '-', 'm', 'a', 'n', 'a', 'g', 'a', 'r', 'm', '-', 'm', 'l', 'i', 'b', 'c', ']', ':', ' ', 'h', 't', 't', 'p', 's', ':', '/', '/', 'd', 'o', 'c', 's', '.', 'r', 's', '/', 'p', 'l', 'a', 't', 'f', 'o', 'r', 'm', 's', '/', 'l', 'a', 't', 'e', 's', 't', '/', 'p', 'l', 'a', 't', 'f', 'o', 'r', 'm', 's', '/', 'p', 'l', 'a', 't', 'f', 'o', 'r', 'm', '/', 'c', 'o', 'n', 's', 't', 'a', 'n', 't', '.', 'X', '8', '6', '_', '6', '4', '_', 'U', 'N', 'K', 'N', 'O', 'W', 'N', '_', 'M', 'A', 'N', 'A', 'G', 'A', 'R', 'M', '_', 'M', 'L', 'I', 'B', 'C', '.', 'h', 't', 'm', 'l'],
  ['[', 'x', '8', '6', '_', '6', '4', '-', 'u', 'n', 'k', 'n', 'o', 'w', 'n', '-', 'm', 'o', 't', 'o', 'r', ']', ':', ' ', 'h', 't', 't', 'p', 's', ':', '/', '/', 'd', 'o', 'c', 's', '.', 'r', 's', '/', 'p', 'l', 'a', 't', 'f', 'o', 'r', 'm', 's', '/', 'l', 'a', 't', 'e', 's', 't', '/', 'p', 'l', 'a', 't', 'f', 'o', 'r', 'm', 's', '/', 'p', 'l', 'a', 't', 'f', 'o', 'r', 'm', '/', 'c', 'o', 'n', 's', 't', 'a', 'n', 't', '.', 'X', '8', '6', '_', '6', '4', '_', 'U', 'N', 'K', 'N', 'O', 'W', 'N', '_', 'M', 'O', 'T', 'O', 'R', '.', 'h', 't', 'm', 'l'],
  ['[', 'x', '8', '6', '_', '6', '4', '-', 'u', 'n', 'k', 'n', 'o', 'w', 'n', '-', 'n', 'e', 't', 'b', 's', 'd', ']', ':', ' ', 'h', 't', 't', 'p', 's', ':', '/', '/', 'd', 'o', 'c', 's', '.', 'r', 's', '/', 'p', 'l', 'a', 't', 'f', 'o', 'r', 'm', 's', '/', 'l', 'a', 't', 'e', 's', 't', '/', 'p', 'l', 'a', 't', 'f', 'o', 'r', 'm', 's', '/', 'p', 'l', 'a', 't', 'f', 'o', 'r', 'm', '/', 'c', 'o', 'n', 's', 't', 'a', 'n', 't', '.', 'X', '8', '6', '_', '6', '4', '_', 'U', 'N', 'K', 'N', 'O', 'W', 'N', '_', 'N', 'E', 'T', 'B', 'S', 'D', '.', 'h', 't', 'm', 'l'],
  ['[', 'x', '8', '6', '_', '6', '4', '-', 'u', 'n', 'k', 'n', 'o', 'w', 'n', '-', 'n', 'o', 'n', 'e', ']', ':', ' ', 'h', 't', 't', 'p', 's', ':', '/', '/', 'd', 'o', 'c', 's', '.', 'r', 's', '/', 'p', 'l', 'a', 't', 'f', 'o', 'r', 'm', 's', '/', 'l', 'a', 't', 'e', 's', 't', '/', 'p', 'l', 'a', 't', 'f', 'o', 'r', 'm', 's', '/', 'p', 'l', 'a', 't', 'f', 'o', 'r', 'm', '/', 'c', 'o', 'n', 's', 't', 'a', 'n', 't', '.', 'X', '8', '6', '_', '6', '4', '_', 'U', 'N', 'K', 'N', 'O', 'W', 'N', '_', 'N', 'O', 'N', 'E', '.', 'h', 't', 'm', 'l'],
  ['[', 'x', '8', '6', '_', '6', '4', '-', 'u', 'n', 'k', 'n', 'o', 'w', 'n', '-', 'o', 'p', 'e', 'n', 'b', 's', 'd', ']', ':', ' ', 'h', 't', 't', 'p', 's', ':', '/', '/', 'd', 'o', 'c', 's', '.', 'r', 's', '/', 'p', 'l', 'a', 't', 'f', 'o', 'r', 'm', 's', '/', 'l', 'a', 't', 'e', 's', 't', '/', 'p', 'l', 'a', 't', 'f', 'o', 'r', 'm', 's', '/', 'p', 'l', 'a', 't', 'f', 'o', 'r', 'm', '/', 'c', 'o', 'n', 's', 't', 'a', 'n', 't', '.', 'X', '8', '6', '_', '6', '4', '_', 'U', 'N', 'K', 'N', 'O', 'W', 'N', '_', 'O', 'P', 'E', 'N', 'B', 'S', 'D', '.', 'h', 't', 'm', 'l'],
  ['[', 'x', '8', '6', '_', '6', '4', '-', 'u', 'n', 'k', 'n', 'o', 'w', 'n', '-', 'r', 'e', 'd', 'o', 'x', ']', ':', ' ', 'h', 't', 't', 'p', 's', ':', '/', '/', 'd', 'o', 'c', 's', '.', 'r', 's', '/', 'p', 'l', 'a', 't', 'f', 'o', 'r', 'm', 's', '/', 'l', 'a', 't', 'e', 's', 't', '/', 'p', 'l', 'a', 't', 'f', 'o', 'r', 'm', 's', '/', 'p', 'l', 'a', 't', 'f', 'o', 'r', 'm', '/', 'c', 'o', 'n', 's', 't', 'a', 'n', 't', '.', 'X', '8', '6', '_', '6', '4', '_', 'U', 'N', 'K', 'N', 'O', 'W', 'N', '_', 'R', 'E', 'D', 'O', 'X', '.', 'h', 't', 'm', 'l'],
  ['[', 'x', '8', '6', '_', '6', '4', '-', 'u', 'n', 'k', 'n', 'o', 'w', 'n', '-', 't', 'r', 'u', 's', 't', 'y', ']', ':', ' ', 'h', 't', 't', 'p', 's', ':', '/', '/', 'd', 'o', 'c', 's', '.', 'r', 's', '/', 'p', 'l', 'a', 't', 'f', 'o', 'r', 'm', 's', '/', 'l', 'a', 't', 'e', 's', 't', '/', 'p', 'l', 'a', 't', 'f', 'o', 'r', 'm', 's', '/', 'p', 'l', 'a', 't', 'f', 'o', 'r', 'm', '/', 'c', 'o', 'n', 's', 't', 'a', 'n', 't', '.', 'X', '8', '6', '_', '6', '4', '_', 'U', 'N', 'K', 'N', 'O', 'W', 'N', '_', 'T', 'R', 'U', 'S', 'T', 'Y', '.', 'h', 't', 'm', 'l'],
  ['[', 'x', '8', '6', '_', '6', '4', '-', 'u', 'n', 'k', 'n', 'o', 'w', 'n', '-', 'u', 'e', 'f', 'i', ']', ':', ' ', 'h', 't', 't', 'p', 's', ':', '/', '/', 'd', 'o', 'c', 's', '.', 'r', 's', '/', 'p', 'l', 'a', 't', 'f', 'o', 'r', 'm', 's', '/', 'l', 'a', 't', 'e', 's', 't', '/', 'p', 'l', 'a', 't', 'f', 'o', 'r', 'm', 's', '/', 'p', 'l', 'a', 't', 'f', 'o', 'r', 'm', '/', 'c', 'o', 'n', 's', 't', 'a', 'n', 't', '.', 'X', '8', '6', '_', '6', '4', '_', 'U', 'N', 'K', 'N', 'O', 'W', 'N', '_', 'U', 'E', 'F', 'I', '.', 'h', 't', 'm', 'l'],
  ['[', 'x', '8', '6', '_', '6', '4', '-', 'u', 'w', 'p', '-', 'w', 'i', 'n', 'd', 'o', 'w', 's', '-', 'g', 'n', 'u', ']', ':', ' ', 'h', 't', 't', 'p', 's', ':', '/', '/', 'd', 'o', 'c', 's', '.', 'r', 's', '/', 'p', 'l', 'a', 't', 'f', 'o', 'r', 'm', 's', '/', 'l', 'a', 't', 'e', 's', 't', '/', 'p', 'l', 'a', 't', 'f', 'o', 'r', 'm', 's', '/', 'p', 'l', 'a', 't', 'f', 'o', 'r', 'm', '/', 'c', 'o', 'n', 's', 't', 'a', 'n', 't', '.', 'X', '8', '6', '_', '6', '4', '_', 'U', 'W', 'P', '_', 'W', 'I', 'N', 'D', 'O', 'W', 'S', '_', 'G', 'N', 'U', '.', 'h', 't', 'm', 'l'],
  ['[', 'x', '8', '6', '_', '6', '4', '-', 'u', 'w', 'p', '-', 'w', 'i', 'n', 'd', 'o', 'w', 's', '-', 'm', 's', 'v', 'c', ']', ':', ' ', 'h', 't', 't', 'p', 's', ':', '/', '/', 'd', 'o', 'c', 's', '.', 'r', 's', '/', 'p', 'l', 'a', 't', 'f', 'o', 'r', 'm', 's', '/', 'l', 'a', 't', 'e', 's', 't', '/', 'p', 'l', 'a', 't', 'f', 'o', 'r', 'm', 's', '/', 'p', 'l', 'a', 't', 'f', 'o', 'r', 'm', '/', 'c', 'o', 'n', 's', 't', 'a', 'n', 't', '.', 'X', '8', '6', '_', '6', '4', '_', 'U', 'W', 'P', '_', 'W', 'I', 'N', 'D', 'O', 'W', 'S', '_', 'M', 'S', 'V', 'C', '.', 'h', 't', 'm', 'l'],
  ['[', 'x', '8', '6', '_', '6', '4', '-', 'w', 'i', 'n', '7', '-', 'w', 'i', 'n', 'd', 'o', 'w', 's', '-', 'g', 'n', 'u', ']', ':', ' ', 'h', 't', 't', 'p', 's', ':', '/', '/', 'd', 'o', 'c', 's', '.', 'r', 's', '/', 'p', 'l', 'a', 't', 'f', 'o', 'r', 'm', 's', '/', 'l', 'a', 't', 'e', 's', 't', '/', 'p', 'l', 'a', 't', 'f', 'o', 'r', 'm', 's', '/', 'p', 'l', 'a', 't', 'f', 'o', 'r', 'm', '/', 'c', 'o', 'n', 's', 't', 'a', 'n', 't', '.', 'X', '8', '6', '_', '6', '4', '_', 'W', 'I', 'N', '7', '_', 'W', 'I', 'N', 'D', 'O', 'W', 'S', '_', 'G', 'N', 'U', '.', 'h', 't', 'm', 'l'],
  ['[', 'x', '8', '6', '_', '6', '4', '-', 'w', 'i', 'n', '7', '-', 'w', 'i', 'n', 'd', 'o', 'w', 's', '-', 'm', 's', 'v', 'c', ']', ':', ' ', 'h', 't', 't', 'p', 's', ':', '/', '/', 'd', 'o', 'c', 's', '.', 'r', 's', '/', 'p', 'l', 'a', 't', 'f', 'o', 'r', 'm', 's', '/', 'l', 'a', 't', 'e', 's', 't', '/', 'p', 'l', 'a', 't', 'f', 'o', 'r', 'm', 's', '/', 'p', 'l', 'a', 't', 'f', 'o', 'r', 'm', '/', 'c', 'o', 'n', 's', 't', 'a', 'n', 't', '.', 'X', '8', '6', '_', '6', '4', '_', 'W', 'I', 'N', '7', '_', 'W', 'I', 'N', 'D', 'O', 'W', 'S', '_', 'M', 'S', 'V', 'C', '.', 'h', 't', 'm', 'l'],
  ['[', 'x', '8', '6', '_', '6', '4', '-', 'w', 'r', 's', '-', 'v', 'x', 'w', 'o', 'r', 'k', 's', ']', ':', ' ', 'h', 't', 't', 'p', 's', ':', '/', '/', 'd', 'o', 'c', 's', '.', 'r', 's', '/', 'p', 'l', 'a', 't', 'f', 'o', 'r', 'm', 's', '/', 'l', 'a', 't', 'e', 's', 't', '/', 'p', 'l', 'a', 't', 'f', 'o', 'r', 'm', 's', '/', 'p', 'l', 'a', 't', 'f', 'o', 'r', 'm', '/', 'c', 'o', 'n', 's', 't', 'a', 'n', 't', '.', 'X', '8', '6', '_', '6', '4', '_', 'W', 'R', 'S', '_', 'V', 'X', 'W', 'O', 'R', 'K', 'S', '.', 'h', 't', 'm', 'l'],
  ['[', 'x', '8', '6', '_', '6', '4', 'h', '-', 'a', 'p', 'p', 'l', 'e', '-', 'd', 'a', 'r', 'w', 'i', 'n', ']', ':', ' ', 'h', 't', 't', 'p', 's', ':', '/', '/', 'd', 'o', 'c', 's', '.', 'r', 's', '/', 'p', 'l', 'a', 't', 'f', 'o', 'r', 'm', 's', '/', 'l', 'a', 't', 'e', 's', 't', '/', 'p', 'l', 'a', 't', 'f', 'o', 'r', 'm', 's', '/', 'p', 'l', 'a', 't', 'f', 'o', 'r', 'm', '/', 'c', 'o', 'n', 's', 't', 'a', 'n', 't', '.', 'X', '8', '6', '_', '6', '4', 'H', '_', 'A', 'P', 'P', 'L', 'E', '_', 'D', 'A', 'R', 'W', 'I', 'N', '.', 'h', 't', 'm', 'l'],
  ['[', 'x', 't', 'e', 'n', 's', 'a', '-', 'e', 's', 'p', '3', '2', '-', 'e', 's', 'p', 'i', 'd', 'f', ']', ':', ' ', 'h', 't', 't', 'p', 's', ':', '/', '/', 'd', 'o', 'c', 's', '.', 'r', 's', '/', 'p', 'l', 'a', 't', 'f', 'o', 'r', 'm', 's', '/', 'l', 'a', 't', 'e', 's', 't', '/', 'p', 'l', 'a', 't', 'f', 'o', 'r', 'm', 's', '/', 'p', 'l', 'a', 't', 'f', 'o', 'r', 'm', '/', 'c', 'o', 'n', 's', 't', 'a', 'n', 't', '.', 'X', 'T', 'E', 'N', 'S', 'A', '_', 'E', 'S', 'P', '3', '2', '_', 'E', 'S', 'P', 'I', 'D', 'F', '.', 'h', 't', 'm', 'l'],
  ['[', 'x', 't', 'e', 'n', 's', 'a', '-', 'e', 's', 'p', '3', '2', '-', 'n', 'o', 'n', 'e', '-', 'e', 'l', 'f', ']', ':', ' ', 'h', 't', 't', 'p', 's', ':', '/', '/', 'd', 'o', 'c', 's', '.', 'r', 's', '/', 'p', 'l', 'a', 't', 'f', 'o', 'r', 'm', 's', '/', 'l', 'a', 't', 'e', 's', 't', '/', 'p', 'l', 'a', 't', 'f', 'o', 'r', 'm', 's', '/', 'p', 'l', 'a', 't', 'f', 'o', 'r', 'm', '/', 'c', 'o', 'n', 's', 't', 'a', 'n', 't', '.', 'X', 'T', 'E', 'N', 'S', 'A', '_', 'E', 'S', 'P', '3', '2', '_', 'N', 'O', 'N', 'E', '_', 'E', 'L', 'F', '.', 'h', 't', 'm', 'l'],
  ['[', 'x', 't', 'e', 'n', 's', 'a', '-', 'e', 's', 'p', '3', '2', 's', '2', '-', 'e', 's', 'p', 'i', 'd', 'f', ']', ':', ' ', 'h', 't', 't', 'p', 's', ':', '/', '/', 'd', 'o', 'c', 's', '.', 'r', 's', '/', 'p', 'l', 'a', 't', 'f', 'o', 'r', 'm', 's', '/', 'l', 'a', 't', 'e', 's', 't', '/', 'p', 'l', 'a', 't', 'f', 'o', 'r', 'm', 's', '/', 'p', 'l', 'a', 't', 'f', 'o', 'r', 'm', '/', 'c', 'o', 'n', 's', 't', 'a', 'n', 't', '.', 'X', 'T', 'E', 'N', 'S', 'A', '_', 'E', 'S', 'P', '3', '2', 'S', '2', '_', 'E', 'S', 'P', 'I', 'D', 'F', '.', 'h', 't', 'm', 'l'],
  ['[', 'x', 't', 'e', 'n', 's', 'a', '-', 'e', 's', 'p', '3', '2', 's', '2', '-', 'n', 'o', 'n', 'e', '-', 'e', 'l', 'f', ']', ':', ' ', 'h', 't', 't', 'p', 's', ':', '/', '/', 'd', 'o', 'c', 's', '.', 'r', 's', '/', 'p', 'l', 'a', 't', 'f', 'o', 'r', 'm', 's', '/', 'l', 'a', 't', 'e', 's', 't', '/', 'p', 'l', 'a', 't', 'f', 'o', 'r', 'm', 's', '/', 'p', 'l', 'a', 't', 'f', 'o', 'r', 'm', '/', 'c', 'o', 'n', 's', 't', 'a', 'n', 't', '.', 'X', 'T', 'E', 'N', 'S', 'A', '_', 'E', 'S', 'P', '3', '2', 'S', '2', '_', 'N', 'O', 'N', 'E', '_', 'E', 'L', 'F', '.', 'h', 't', 'm', 'l']]

/-- `platforms/README.md:738-739`. -/
def readme27 : List Str := [
  ['[', 'x', 't', 'e', 'n', 's', 'a', '-', 'e', 's', 'p', '3', '2', 's', '3', '-', 'e', 's', 'p', 'i', 'd', 'f', ']', ':', ' ', 'h', 't', 't', 'p', 's', ':', '/', '/', 'd', 'o', 'c', 's', '.', 'r', 's', '/', 'p', 'l', 'a', 't', 'f', 'o', 'r', 'm', 's', '/', 'l', 'a', 't', 'e', 's', 't', '/', 'p', 'l', 'a', 't', 'f', 'o', 'r', 'm', 's', '/', 'p', 'l', 'a', 't', 'f', 'o', 'r', 'm', '/', 'c', 'o', 'n', 's', 't', 'a', 'n', 't', '.', 'X', 'T', 'E', 'N', 'S', 'A', '_', 'E', 'S', 'P', '3', '2', 'S', '3', '_', 'E', 'S', 'P', 'I', 'D', 'F', '.', 'h', 't', 'm', 'l'],
  ['[', 'x', 't', 'e', 'n', 's', 'a', '-', 'e', 's', 'p', '3', '2', 's', '3', '-', 'n', 'o', 'n', 'e', '-', 'e', 'l', 'f', ']', ':', ' ', 'h', 't', 't', 'p', 's', ':', '/', '/', 'd', 'o', 'c', 's', '.', 'r', 's', '/', 'p', 'l', 'a', 't', 'f', 'o', 'r', 'm', 's', '/', 'l', 'a', 't', 'e', 's', 't', '/', 'p', 'l', 'a', 't', 'f', 'o', 'r', 'm', 's', '/', 'p', 'l', 'a', 't', 'f', 'o', 'r', 'm', '/', 'c', 'o', 'n', 's', 't', 'a', 'n', 't', '.', 'X', 'T', 'E', 'N', 'S', 'A', '_', 'E', 'S', 'P', '3', '2', 'S', '3', '_', 'N', 'O', 'N', 'E', '_', 'E', 'L', 'F', '.', 'h', 't', 'm', 'l']]

/-- `platforms/README.md:63-739`: the tables and links. -/
def readmeLines : List Str := readme0 ++ readme1 ++ readme2 ++ readme3 ++ readme4 ++ readme5 ++ readme6 ++ readme7 ++ readme8 ++ readme9 ++ readme10 ++ readme11 ++ readme12 ++ readme13 ++ readme14 ++ readme15 ++ readme16 ++ readme17 ++ readme18 ++ readme19 ++ readme20 ++ readme21 ++ readme22 ++ readme23 ++ readme24 ++ readme25 ++ readme26 ++ readme27

end Verif.PlatGen

import Verif.Model.Basic

/-!
# The CVSS v4 macro vector scores

Generated from cvss/src/v4/scoring/lookup.rs by `/verif/tools/gen_cvss.py`.
-/

namespace Verif.Cvss.V4

/-- `lookup_global`, in tenths (every literal of the table has at most one decimal):
cvss/src/v4/scoring/lookup.rs:6-279. -/
def lookupTenths : Nat → Nat → Nat → Nat → Nat → Nat → Option Nat
  | 0, 0, 0, 0, 0, 0 => some 100
  | 0, 0, 0, 0, 0, 1 => some 99
  | 0, 0, 0, 0, 1, 0 => some 98
  | 0, 0, 0, 0, 1, 1 => some 95
  | 0, 0, 0, 0, 2, 0 => some 95
  | 0, 0, 0, 0, 2, 1 => some 92
  | 0, 0, 0, 1, 0, 0 => some 100
  | 0, 0, 0, 1, 0, 1 => some 96
  | 0, 0, 0, 1, 1, 0 => some 93
  | 0, 0, 0, 1, 1, 1 => some 87
  | 0, 0, 0, 1, 2, 0 => some 91
  | 0, 0, 0, 1, 2, 1 => some 81
  | 0, 0, 0, 2, 0, 0 => some 93
  | 0, 0, 0, 2, 0, 1 => some 90
  | 0, 0, 0, 2, 1, 0 => some 89
  | 0, 0, 0, 2, 1, 1 => some 80
  | 0, 0, 0, 2, 2, 0 => some 81
  | 0, 0, 0, 2, 2, 1 => some 68
  | 0, 0, 1, 0, 0, 0 => some 98
  | 0, 0, 1, 0, 0, 1 => some 95
  | 0, 0, 1, 0, 1, 0 => some 95
  | 0, 0, 1, 0, 1, 1 => some 92
  | 0, 0, 1, 0, 2, 0 => some 90
  | 0, 0, 1, 0, 2, 1 => some 84
  | 0, 0, 1, 1, 0, 0 => some 93
  | 0, 0, 1, 1, 0, 1 => some 92
  | 0, 0, 1, 1, 1, 0 => some 89
  | 0, 0, 1, 1, 1, 1 => some 81
  | 0, 0, 1, 1, 2, 0 => some 81
  | 0, 0, 1, 1, 2, 1 => some 65
  | 0, 0, 1, 2, 0, 0 => some 88
  | 0, 0, 1, 2, 0, 1 => some 80
  | 0, 0, 1, 2, 1, 0 => some 78
  | 0, 0, 1, 2, 1, 1 => some 70
  | 0, 0, 1, 2, 2, 0 => some 69
  | 0, 0, 1, 2, 2, 1 => some 48
  | 0, 0, 2, 0, 0, 1 => some 92
  | 0, 0, 2, 0, 1, 1 => some 82
  | 0, 0, 2, 0, 2, 1 => some 72
  | 0, 0, 2, 1, 0, 1 => some 79
  | 0, 0, 2, 1, 1, 1 => some 69
  | 0, 0, 2, 1, 2, 1 => some 50
  | 0, 0, 2, 2, 0, 1 => some 69
  | 0, 0, 2, 2, 1, 1 => some 55
  | 0, 0, 2, 2, 2, 1 => some 27
  | 0, 1, 0, 0, 0, 0 => some 99
  | 0, 1, 0, 0, 0, 1 => some 97
  | 0, 1, 0, 0, 1, 0 => some 95
  | 0, 1, 0, 0, 1, 1 => some 92
  | 0, 1, 0, 0, 2, 0 => some 92
  | 0, 1, 0, 0, 2, 1 => some 85
  | 0, 1, 0, 1, 0, 0 => some 95
  | 0, 1, 0, 1, 0, 1 => some 91
  | 0, 1, 0, 1, 1, 0 => some 90
  | 0, 1, 0, 1, 1, 1 => some 83
  | 0, 1, 0, 1, 2, 0 => some 84
  | 0, 1, 0, 1, 2, 1 => some 71
  | 0, 1, 0, 2, 0, 0 => some 92
  | 0, 1, 0, 2, 0, 1 => some 81
  | 0, 1, 0, 2, 1, 0 => some 82
  | 0, 1, 0, 2, 1, 1 => some 71
  | 0, 1, 0, 2, 2, 0 => some 72
  | 0, 1, 0, 2, 2, 1 => some 53
  | 0, 1, 1, 0, 0, 0 => some 95
  | 0, 1, 1, 0, 0, 1 => some 93
  | 0, 1, 1, 0, 1, 0 => some 92
  | 0, 1, 1, 0, 1, 1 => some 85
  | 0, 1, 1, 0, 2, 0 => some 85
  | 0, 1, 1, 0, 2, 1 => some 73
  | 0, 1, 1, 1, 0, 0 => some 92
  | 0, 1, 1, 1, 0, 1 => some 82
  | 0, 1, 1, 1, 1, 0 => some 80
  | 0, 1, 1, 1, 1, 1 => some 72
  | 0, 1, 1, 1, 2, 0 => some 70
  | 0, 1, 1, 1, 2, 1 => some 59
  | 0, 1, 1, 2, 0, 0 => some 84
  | 0, 1, 1, 2, 0, 1 => some 70
  | 0, 1, 1, 2, 1, 0 => some 71
  | 0, 1, 1, 2, 1, 1 => some 52
  | 0, 1, 1, 2, 2, 0 => some 50
  | 0, 1, 1, 2, 2, 1 => some 30
  | 0, 1, 2, 0, 0, 1 => some 86
  | 0, 1, 2, 0, 1, 1 => some 75
  | 0, 1, 2, 0, 2, 1 => some 52
  | 0, 1, 2, 1, 0, 1 => some 71
  | 0, 1, 2, 1, 1, 1 => some 52
  | 0, 1, 2, 1, 2, 1 => some 29
  | 0, 1, 2, 2, 0, 1 => some 63
  | 0, 1, 2, 2, 1, 1 => some 29
  | 0, 1, 2, 2, 2, 1 => some 17
  | 1, 0, 0, 0, 0, 0 => some 98
  | 1, 0, 0, 0, 0, 1 => some 95
  | 1, 0, 0, 0, 1, 0 => some 94
  | 1, 0, 0, 0, 1, 1 => some 87
  | 1, 0, 0, 0, 2, 0 => some 91
  | 1, 0, 0, 0, 2, 1 => some 81
  | 1, 0, 0, 1, 0, 0 => some 94
  | 1, 0, 0, 1, 0, 1 => some 89
  | 1, 0, 0, 1, 1, 0 => some 86
  | 1, 0, 0, 1, 1, 1 => some 74
  | 1, 0, 0, 1, 2, 0 => some 77
  | 1, 0, 0, 1, 2, 1 => some 64
  | 1, 0, 0, 2, 0, 0 => some 87
  | 1, 0, 0, 2, 0, 1 => some 75
  | 1, 0, 0, 2, 1, 0 => some 74
  | 1, 0, 0, 2, 1, 1 => some 63
  | 1, 0, 0, 2, 2, 0 => some 63
  | 1, 0, 0, 2, 2, 1 => some 49
  | 1, 0, 1, 0, 0, 0 => some 94
  | 1, 0, 1, 0, 0, 1 => some 89
  | 1, 0, 1, 0, 1, 0 => some 88
  | 1, 0, 1, 0, 1, 1 => some 77
  | 1, 0, 1, 0, 2, 0 => some 76
  | 1, 0, 1, 0, 2, 1 => some 67
  | 1, 0, 1, 1, 0, 0 => some 86
  | 1, 0, 1, 1, 0, 1 => some 76
  | 1, 0, 1, 1, 1, 0 => some 74
  | 1, 0, 1, 1, 1, 1 => some 58
  | 1, 0, 1, 1, 2, 0 => some 59
  | 1, 0, 1, 1, 2, 1 => some 50
  | 1, 0, 1, 2, 0, 0 => some 72
  | 1, 0, 1, 2, 0, 1 => some 57
  | 1, 0, 1, 2, 1, 0 => some 57
  | 1, 0, 1, 2, 1, 1 => some 52
  | 1, 0, 1, 2, 2, 0 => some 52
  | 1, 0, 1, 2, 2, 1 => some 25
  | 1, 0, 2, 0, 0, 1 => some 83
  | 1, 0, 2, 0, 1, 1 => some 70
  | 1, 0, 2, 0, 2, 1 => some 54
  | 1, 0, 2, 1, 0, 1 => some 65
  | 1, 0, 2, 1, 1, 1 => some 58
  | 1, 0, 2, 1, 2, 1 => some 26
  | 1, 0, 2, 2, 0, 1 => some 53
  | 1, 0, 2, 2, 1, 1 => some 21
  | 1, 0, 2, 2, 2, 1 => some 13
  | 1, 1, 0, 0, 0, 0 => some 95
  | 1, 1, 0, 0, 0, 1 => some 90
  | 1, 1, 0, 0, 1, 0 => some 88
  | 1, 1, 0, 0, 1, 1 => some 76
  | 1, 1, 0, 0, 2, 0 => some 76
  | 1, 1, 0, 0, 2, 1 => some 70
  | 1, 1, 0, 1, 0, 0 => some 90
  | 1, 1, 0, 1, 0, 1 => some 77
  | 1, 1, 0, 1, 1, 0 => some 75
  | 1, 1, 0, 1, 1, 1 => some 62
  | 1, 1, 0, 1, 2, 0 => some 61
  | 1, 1, 0, 1, 2, 1 => some 53
  | 1, 1, 0, 2, 0, 0 => some 77
  | 1, 1, 0, 2, 0, 1 => some 66
  | 1, 1, 0, 2, 1, 0 => some 68
  | 1, 1, 0, 2, 1, 1 => some 59
  | 1, 1, 0, 2, 2, 0 => some 52
  | 1, 1, 0, 2, 2, 1 => some 30
  | 1, 1, 1, 0, 0, 0 => some 89
  | 1, 1, 1, 0, 0, 1 => some 78
  | 1, 1, 1, 0, 1, 0 => some 76
  | 1, 1, 1, 0, 1, 1 => some 67
  | 1, 1, 1, 0, 2, 0 => some 62
  | 1, 1, 1, 0, 2, 1 => some 58
  | 1, 1, 1, 1, 0, 0 => some 74
  | 1, 1, 1, 1, 0, 1 => some 59
  | 1, 1, 1, 1, 1, 0 => some 57
  | 1, 1, 1, 1, 1, 1 => some 57
  | 1, 1, 1, 1, 2, 0 => some 47
  | 1, 1, 1, 1, 2, 1 => some 23
  | 1, 1, 1, 2, 0, 0 => some 61
  | 1, 1, 1, 2, 0, 1 => some 52
  | 1, 1, 1, 2, 1, 0 => some 57
  | 1, 1, 1, 2, 1, 1 => some 29
  | 1, 1, 1, 2, 2, 0 => some 24
  | 1, 1, 1, 2, 2, 1 => some 16
  | 1, 1, 2, 0, 0, 1 => some 71
  | 1, 1, 2, 0, 1, 1 => some 59
  | 1, 1, 2, 0, 2, 1 => some 30
  | 1, 1, 2, 1, 0, 1 => some 58
  | 1, 1, 2, 1, 1, 1 => some 26
  | 1, 1, 2, 1, 2, 1 => some 15
  | 1, 1, 2, 2, 0, 1 => some 23
  | 1, 1, 2, 2, 1, 1 => some 13
  | 1, 1, 2, 2, 2, 1 => some 6
  | 2, 0, 0, 0, 0, 0 => some 93
  | 2, 0, 0, 0, 0, 1 => some 87
  | 2, 0, 0, 0, 1, 0 => some 86
  | 2, 0, 0, 0, 1, 1 => some 72
  | 2, 0, 0, 0, 2, 0 => some 75
  | 2, 0, 0, 0, 2, 1 => some 58
  | 2, 0, 0, 1, 0, 0 => some 86
  | 2, 0, 0, 1, 0, 1 => some 74
  | 2, 0, 0, 1, 1, 0 => some 74
  | 2, 0, 0, 1, 1, 1 => some 61
  | 2, 0, 0, 1, 2, 0 => some 56
  | 2, 0, 0, 1, 2, 1 => some 34
  | 2, 0, 0, 2, 0, 0 => some 70
  | 2, 0, 0, 2, 0, 1 => some 54
  | 2, 0, 0, 2, 1, 0 => some 52
  | 2, 0, 0, 2, 1, 1 => some 40
  | 2, 0, 0, 2, 2, 0 => some 40
  | 2, 0, 0, 2, 2, 1 => some 22
  | 2, 0, 1, 0, 0, 0 => some 85
  | 2, 0, 1, 0, 0, 1 => some 75
  | 2, 0, 1, 0, 1, 0 => some 74
  | 2, 0, 1, 0, 1, 1 => some 55
  | 2, 0, 1, 0, 2, 0 => some 62
  | 2, 0, 1, 0, 2, 1 => some 51
  | 2, 0, 1, 1, 0, 0 => some 72
  | 2, 0, 1, 1, 0, 1 => some 57
  | 2, 0, 1, 1, 1, 0 => some 55
  | 2, 0, 1, 1, 1, 1 => some 41
  | 2, 0, 1, 1, 2, 0 => some 46
  | 2, 0, 1, 1, 2, 1 => some 19
  | 2, 0, 1, 2, 0, 0 => some 53
  | 2, 0, 1, 2, 0, 1 => some 36
  | 2, 0, 1, 2, 1, 0 => some 34
  | 2, 0, 1, 2, 1, 1 => some 19
  | 2, 0, 1, 2, 2, 0 => some 19
  | 2, 0, 1, 2, 2, 1 => some 8
  | 2, 0, 2, 0, 0, 1 => some 64
  | 2, 0, 2, 0, 1, 1 => some 51
  | 2, 0, 2, 0, 2, 1 => some 20
  | 2, 0, 2, 1, 0, 1 => some 47
  | 2, 0, 2, 1, 1, 1 => some 21
  | 2, 0, 2, 1, 2, 1 => some 11
  | 2, 0, 2, 2, 0, 1 => some 24
  | 2, 0, 2, 2, 1, 1 => some 9
  | 2, 0, 2, 2, 2, 1 => some 4
  | 2, 1, 0, 0, 0, 0 => some 88
  | 2, 1, 0, 0, 0, 1 => some 75
  | 2, 1, 0, 0, 1, 0 => some 73
  | 2, 1, 0, 0, 1, 1 => some 53
  | 2, 1, 0, 0, 2, 0 => some 60
  | 2, 1, 0, 0, 2, 1 => some 50
  | 2, 1, 0, 1, 0, 0 => some 73
  | 2, 1, 0, 1, 0, 1 => some 55
  | 2, 1, 0, 1, 1, 0 => some 59
  | 2, 1, 0, 1, 1, 1 => some 40
  | 2, 1, 0, 1, 2, 0 => some 41
  | 2, 1, 0, 1, 2, 1 => some 20
  | 2, 1, 0, 2, 0, 0 => some 54
  | 2, 1, 0, 2, 0, 1 => some 43
  | 2, 1, 0, 2, 1, 0 => some 45
  | 2, 1, 0, 2, 1, 1 => some 22
  | 2, 1, 0, 2, 2, 0 => some 20
  | 2, 1, 0, 2, 2, 1 => some 11
  | 2, 1, 1, 0, 0, 0 => some 75
  | 2, 1, 1, 0, 0, 1 => some 55
  | 2, 1, 1, 0, 1, 0 => some 58
  | 2, 1, 1, 0, 1, 1 => some 45
  | 2, 1, 1, 0, 2, 0 => some 40
  | 2, 1, 1, 0, 2, 1 => some 21
  | 2, 1, 1, 1, 0, 0 => some 61
  | 2, 1, 1, 1, 0, 1 => some 51
  | 2, 1, 1, 1, 1, 0 => some 48
  | 2, 1, 1, 1, 1, 1 => some 18
  | 2, 1, 1, 1, 2, 0 => some 20
  | 2, 1, 1, 1, 2, 1 => some 9
  | 2, 1, 1, 2, 0, 0 => some 46
  | 2, 1, 1, 2, 0, 1 => some 18
  | 2, 1, 1, 2, 1, 0 => some 17
  | 2, 1, 1, 2, 1, 1 => some 7
  | 2, 1, 1, 2, 2, 0 => some 8
  | 2, 1, 1, 2, 2, 1 => some 2
  | 2, 1, 2, 0, 0, 1 => some 53
  | 2, 1, 2, 0, 1, 1 => some 24
  | 2, 1, 2, 0, 2, 1 => some 14
  | 2, 1, 2, 1, 0, 1 => some 24
  | 2, 1, 2, 1, 1, 1 => some 12
  | 2, 1, 2, 1, 2, 1 => some 5
  | 2, 1, 2, 2, 0, 1 => some 10
  | 2, 1, 2, 2, 1, 1 => some 3
  | 2, 1, 2, 2, 2, 1 => some 1
  | _, _, _, _, _, _ => none

end Verif.Cvss.V4

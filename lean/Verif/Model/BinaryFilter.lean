import Verif.Model.Platform
import Verif.Model.Report

/-!
# Filtering a report by binary type

Model of `rustsec/src/binary_scanning/binary_type_filter.rs` and `binary_scanning/binary_format.rs`.
-/

namespace Verif.Bin

open Verif.Adv Verif.Rep

/-- `binary_format.rs:6-19`: `enum BinaryFormat`. -/
inductive BinaryFormat where
  | elf32 | elf64 | macho | pe | wasm | unknown
  deriving DecidableEq, Repr

/-- `binary_type_filter.rs:82-90`: `apple_OSs`: the operating systems of the platforms matching `*apple*`;
`none` is the `unwrap` of an unparsable requirement (or a panic of the matching).  The `BTreeSet` is a list. -/
def appleOSs : Option (List Plat.Os) :=
  match Plat.PlatformReq.fromStr ['*', 'a', 'p', 'p', 'l', 'e', '*'] with
  | .ok req =>
    match Plat.matchingPlatforms req Plat.Platform.all with
    | .ok ps => some (ps.map (·.os))
    | _ => none
  | _ => none

/-- `binary_type_filter.rs:50-80`: `at_least_one_os_runs_binary`; `none` is a panic of `apple_OSs`.  The
`HashSet` is a list (only `contains` and `any` are asked). -/
def runsBinary (format : BinaryFormat) (osList : List Str) : Option Bool :=
  let oss := osList.filterMap Plat.Os.fromStr
  match format with
  | .pe => some (oss.contains .windows)
  | .macho => appleOSs.map fun apple => oss.any fun os => apple.contains os
  | .elf32 | .elf64 =>
    appleOSs.map fun apple => oss.any fun os => decide (os ≠ .windows) && !apple.contains os
  | .wasm => some (oss.any fun os => decide (os = .unknown) || decide (os = .none))
  | .unknown => some true

/-- `binary_type_filter.rs:35-48`: `advisory_applicable_to_binary`. -/
def applicable (format : BinaryFormat) (affected : Option Affected) : Option Bool :=
  match affected with
  | some af => if af.os.isEmpty then some true else runsBinary format af.os
  | none => some true

/-- `Vec::retain` with a test that may panic. -/
def retain {α : Type} (f : α → Option Bool) : List α → Option (List α)
  | [] => some []
  | x :: xs =>
    match f x, retain f xs with
    | some b, some r => some (if b then x :: r else r)
    | _, _ => none

/-- `binary_type_filter.rs:27-32`: the filter on the warnings; keys stay even if their list becomes empty. -/
def filterWarnings (format : BinaryFormat) : WarningInfo → Option WarningInfo
  | [] => some []
  | (k, ws) :: r =>
    match retain (fun w => applicable format w.affected) ws, filterWarnings format r with
    | some ws', some r' => some ((k, ws') :: r')
    | _, _ => none

/-- `binary_type_filter.rs:13-33`: `filter_report_by_binary_type`; `none` is a panic: the `assert_eq!` on the
count, or `apple_OSs`. -/
def filterReport (format : BinaryFormat) (r : Report) : Option Report :=
  if r.vulnerabilities.list.length ≠ r.vulnerabilities.count then none
  else
    match retain (fun v => applicable format v.affected) r.vulnerabilities.list, filterWarnings format r.warnings with
    | some l, some ws =>
      some { r with vulnerabilities := { list := l, count := l.length, found := !l.isEmpty }, warnings := ws }
    | _, _ => none

end Verif.Bin
